#!/usr/bin/env python3
"""Turns the raw results of tools/mutate.py (seeded/raw/*.jsonl; a later record of the same id replaces an earlier
one) into seeded/LOG.jsonl. A property theorem counts as failed when it, or a declaration its proof rests on
(dependency map printed by tools/deps.txt, given as argument), stopped checking after the edit.
Usage: mklog.py DEPS-FILE"""
import json, sys, glob, os, re
def cid(t): return 'C'+re.match(r'c(\d+)_',t).group(1) if re.match(r'c(\d+)_',t) else ''
R='/verif/seeded'
deps={}
for l in open(sys.argv[1]):
    if 'DEP ' in l:
        w=l[l.index('DEP ')+4:].split()
        deps[w[0].split('.',1)[1]]={x.split('.',1)[1] if x.startswith('Imgproc.') else x for x in w[1:]}
rev={}
for t,ds in deps.items():
    for d in ds: rev.setdefault(d,set()).add(t)
extra=json.load(open(R+'/remarks.json'))
rec={}
for f in sorted(glob.glob(R+'/raw/*.jsonl')):
    for l in open(f):
        d=json.loads(l)
        if 'error' in d: continue
        if d['model_does_not_compile']: continue
        rec[d['id']]=d
out=[];bad=[]
for i,d in rec.items():
    failed=set(d['theorems_failed'])
    lem=[]
    for o in d['other_failed']:
        n=o.split(': ',1)[1]
        if n.startswith('example@'): continue
        lem.append(n)
        failed|=rev.get(n,set())
    e=extra.get(i,{})
    cl=set(e.get('claims') or d['claims'])
    hit={cid(t) for t in failed}
    miss=sorted(cl-hit)
    status=e.get('status') or ('caught' if not miss else 'survived')
    if status=='survived': bad.append((i,miss,sorted(lem)))
    out.append(dict(id=i,definition=d['definition'],edit=d['edit'],bug=d['bug'],claim_broken=sorted(cl),status=status,
        theorems_failed=sorted(failed,key=lambda t:(cid(t) not in cl,t))[:40],n_theorems_failed=len(failed),
        lemmas_failed=lem,theorems_tightened=e.get('tightened',[]),remark=e.get('remark','')))
# results of tools/automut.py (seeded/raw/auto): the first declaration that stopped checking, and the property theorems resting on it
for f in sorted(glob.glob(R+'/raw/auto/*.jsonl')):
    for l in open(f):
        d=json.loads(l); e=extra.get(d['id'],{})
        ts=[]; at=d.get('at','')
        m=re.search(r'(?:theorem|lemma|def|instance) (\S+)',at)
        if m:
            n=m.group(1)
            ts=sorted(({n} if cid(n) else set())|rev.get(n,set()))
        out.append(dict(id=d['id'],definition=d['file']+'.lean: '+d['def'],edit=d['edit'],bug='single-token edit made by tools/automut.py',
            claim_broken=e.get('claims') or sorted({cid(t) for t in ts}),status=e.get('status') or ('caught' if d['result']=='killed' else 'survived'),
            first_failure=at,theorems_failed=ts[:40],n_theorems_failed=len(ts),theorems_tightened=e.get('tightened',[]),
            remark=e.get('remark','') or ('the build was stopped at the first failure; the theorems are those whose proofs rest on the declaration that failed' if at else '')))
        if out[-1]['status']=='survived': bad.append((d['id'],d['edit'],[]))
with open(R+'/LOG.jsonl','w') as f:
    for o in out: f.write(json.dumps(o,ensure_ascii=False)+'\n')
print(len(out),'mutants;',sum(o['status']=='caught' for o in out),'caught')
for b in bad: print('SURVIVED',b)
