#!/usr/bin/env python3
"""Writes lean/Verif/Proofs/MetaTable.lean: the formats in README order and in two sorted orders
(certificates for Props/Meta.lean; the kernel checks everything they are used for)."""
import re,os
root=os.path.dirname(os.path.dirname(os.path.abspath(__file__)))
s=open('/repo/src/formats.rs').read()
fs=re.findall(r'format = (\w+)\s+name = "((?:[^"\\]|\\.)*)"\s+(?:short_name = "((?:[^"\\]|\\.)*)"\s+)?media_type = "([^"]*)"\s+extension = "([^"]*)"\s+kind = (\w+)',s)
un=lambda x:x.replace('\\"','"').replace('\\\\','\\')
key=lambda x:__import__('functools').reduce(lambda a,c:a*256+c,x.encode(),0)
bullet=lambda f:un(f[1])+(f" ({un(f[2])})" if f[2] else "")
byb={}
for f in fs: byb.setdefault((bullet(f)),[]).append(f)
sec=None; order=[]
on=False
for l in open('/repo/README.md'):
    l=l.rstrip('\n')
    if l.startswith('## '): on=l=='## Supported file formats'
    elif on and l.startswith('### '): order.append((l[4:],[]))
    elif on and l.startswith('- '):
        c=byb[l[2:]]; assert len(c)==1; order[-1][1].append(c[0])
assert sum(len(x) for _,x in order)==len(fs)==447
def lst(l): 
    out=[];line='  '
    for i,n in enumerate(l):
        w=n+(', ' if i+1<len(l) else ']')
        if len(line)+len(w)>100: out.append(line.rstrip()); line='  '
        line+=w
    out.append(line)
    return '[\n'+'\n'.join(out)
o='''import Verif.Model.Format
/-!
Generated by `tools/genmeta.py`: orderings of the formats used as certificates. Do not edit by hand.
-/

namespace FF.Meta
open FileFormat

/-- The formats in the order of `README.md`, by kind. -/
def readmeOrder : List (Kind × List FileFormat) := [
'''
o+=',\n'.join(f'  (.{"Rom" if k=="ROM" else k}, {lst([f[0] if f[0]!="Empty" else "FileFormat.Empty" for f in l])})' for k,l in order)+']\n\n'
E=lambda f:"FileFormat.Empty" if f[0]=="Empty" else f[0]
o+='/-- The formats by name, shorter names first. -/\ndef nameOrder : List FileFormat := '+lst([E(f) for f in sorted(fs,key=lambda f:key(un(f[1])))])+'\n\n'
o+='/-- The formats by README entry, shorter entries first. -/\ndef entryOrder : List FileFormat := '+lst([E(f) for f in sorted(fs,key=lambda f:key(bullet(f)))])+'\n\nend FF.Meta\n'
open(root+'/lean/Verif/Proofs/MetaTable.lean','w').write(o)
