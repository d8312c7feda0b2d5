#!/usr/bin/env python3
"""Writes MANIFEST.json: collects the theorems named Cnn_... of lean/Verif/Props by property."""
import json,re,glob,os
root=os.path.dirname(os.path.dirname(os.path.abspath(__file__)))
notes={
 "C02":("partial","The code violates the full statement (C02_fails, with one panic witness per reader: ASF, MP4, ZIP). Proved: no panic, and the release verdict, for every content below 2^62 bytes whose ASF object sizes, MP4 box sizes and ZIP64 offsets, where detection meets them, are below 2^62 (C02_modest_partial; on every stream and file, with the same calls: C02_stream_modest_partial, C02_file_modest_partial); no panic whenever those three readers are not run (C02_no_panic_partial). The exact condition for a panic: C74."),
}
exec(open(os.path.join(root,'tools','notes.py')).read()) if os.path.exists(os.path.join(root,'tools','notes.py')) else None
ths={}
for f in sorted(glob.glob(root+'/lean/Verif/Props/*.lean')):
    for m in re.finditer(r'^theorem (C(\d\d)_\w+)',open(f).read(),re.M):
        ths.setdefault('C'+m[2],[]).append(m[1])
claims=[]
for l in open(root+'/properties.jsonl'):
    p=json.loads(l)['id']
    st,note=notes.get(p,("proved",""))
    if p not in ths:
        st,note="partial","no theorem yet"
    claims.append(dict(property=p,status=st,theorems=ths.get(p,[]),note=note))
json.dump(dict(claims=claims),open(root+'/MANIFEST.json','w'),indent=1)
print({s:sum(c['status']==s for c in claims) for s in ("proved","partial","not_applicable")},[c['property'] for c in claims if not c['theorems']])
