#!/usr/bin/env python3
"""Seeds wrong programs into a scratch copy of the model and reports which theorems stop proving.

usage: mutate.py MUTANTS.json [first [last]]
Each mutant: {"file","definition","old","new","edit","claim"}; "old" must occur exactly once; optional "targets": build only these modules.
Appends one JSON line per mutant to seeded/LOG.jsonl. Needs a built /verif/lean (its .lake is copied)."""
import json, os, re, shutil, subprocess, sys, time
V = os.environ.get('BASE', '/verif/lean'); S = os.environ.get('SCRATCH', '/tmp/w/mut/lean'); LOG = '/verif/seeded/LOG.jsonl'
DECL = re.compile(r'^(?:@\[[^\]]*\]\s*)?(?:private |protected )?(theorem|lemma|def|instance|example|abbrev)\s*(\S*)')

def fresh():
    shutil.rmtree(S, ignore_errors=True)
    subprocess.check_call(['cp', '-r', '--preserve=timestamps', V, S])

def decl(path, line):
    ls = open(path).read().split('\n')
    for i in range(min(line, len(ls)) - 1, -1, -1):
        m = DECL.match(ls[i])
        if m: return m.group(2) if m.group(1) != 'example' else 'example at line %d' % (i + 1)
    return '?'

def imports(path):
    return [m.group(1) for m in re.finditer(r'^import (Verif\S*)', open(path).read(), re.M)]

def build(targets):
    if not os.path.basename(sys.argv[1]).startswith('auto'):
        r = subprocess.run(['lake', 'build'] + targets, cwd=S, capture_output=True, text=True)
        return r.stdout + r.stderr, r.returncode
    # many mutants: stop soon after the first error
    with open(''+S+'.out.txt', 'w') as o:
        q = subprocess.Popen(['lake', 'build'] + targets, cwd=S, stdout=o, stderr=o, start_new_session=True)
        grace = None
        while q.poll() is None:
            time.sleep(1)
            if grace is None and '\nerror: Verif/' in open(''+S+'.out.txt').read(): grace = time.time() + 5
            if grace and time.time() > grace:
                os.killpg(q.pid, 9); q.wait()
    return '\n' + open(''+S+'.out.txt').read(), q.returncode

def run(m):
    fresh()
    p = f'{S}/Verif/{m["file"]}'
    t = open(p).read()
    n = t.count(m['old'])
    assert n == 1, (m['edit'], n)
    open(p, 'w').write(t.replace(m['old'], m['new']))
    t0 = time.time()
    out, rc = build(m.get('targets', []))
    failed, badmods = {}, set()
    for f, l in re.findall(r'^error: (Verif/\S+?\.lean):(\d+):\d+', out, re.M):
        d = decl(f'{S}/{f}', int(l)); mod = f[:-5].replace('/', '.')
        badmods.add(mod)
        failed.setdefault(mod, [])
        if d not in failed[mod]: failed[mod].append(d)
    for x in re.findall(r'^✖ \[\S+\] Building (\S+)', out, re.M): badmods.add(x)
    deps = {}
    for root, _, fs in os.walk(f'{S}/Verif'):
        for f in fs:
            if f.endswith('.lean'):
                q = os.path.join(root, f); deps[os.path.relpath(q, S)[:-5].replace('/', '.')] = imports(q)
    memo = {}
    def blocked(x):
        if x not in memo:
            memo[x] = False
            memo[x] = any(d in badmods or blocked(d) for d in deps.get(x, []))
        return memo[x]
    blk = sorted(x for x in deps if x.startswith('Verif.Props.') and (x in badmods or blocked(x)))
    return dict(failed=failed, broken_modules=sorted(badmods), unprovable_props_modules=blk, built=rc == 0,
                seconds=round(time.time() - t0), raw=out if rc and not failed else '')

def main():
    ms = json.load(open(sys.argv[1]))
    a = int(sys.argv[2]) if len(sys.argv) > 2 else 0
    b = int(sys.argv[3]) if len(sys.argv) > 3 else len(ms)
    for i, m in list(enumerate(ms))[a:b]:
        r = run(m)
        if r['broken_modules'] == ['Verif.' + m['file'][:-5].replace('/', '.')]:
            print(i, 'NOT A PROGRAM', r['seconds'], 's', m['edit'], flush=True)
            continue
        d = dict(definition=m['definition'], file='lean/Verif/' + m['file'], edit=m['edit'], claim_broken=m['claim'],
                 theorems_failed=[f'{k}: {", ".join(v)}' for k, v in r['failed'].items()],
                 props_modules_no_longer_accepted=r['unprovable_props_modules'], survived=r['built'],
                 theorems_tightened=m.get('tightened', []))
        if m.get('note'): d['note'] = m['note']
        open(LOG, 'a').write(json.dumps(d) + '\n')
        print(i, 'SURVIVED' if r['built'] else 'killed', r['seconds'], 's', m['edit'], '|', m['claim'][:60], '|', d['theorems_failed'], [x[12:] for x in r['unprovable_props_modules']], r['raw'][-300:], flush=True)
main()
