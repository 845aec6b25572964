#!/usr/bin/env python3
"""Mutation runner: apply one edit to a model definition in a scratch copy of /verif/lean, build the
property modules of the claims the edit should break, and log which declarations stop checking.
Usage: mutate.py mutants.py [id ...]      (mutants.py defines M = [(id, file, def, old, new, what, claims), ...])"""
import json, os, re, subprocess, sys, glob
SRC='/verif/lean'; PRI='/tmp/mut0'; WRK='/tmp/mut'; LOG='/verif/seeded/LOG.jsonl'
def sh(c): return subprocess.run(c,shell=True,capture_output=True,text=True)
def decls(path):
    out=[]
    for n,l in enumerate(open(path),1):
        m=re.match(r'\s*(?:@\[[^\]]*\]\s*)?(?:private |protected |noncomputable )*(theorem|lemma|def|instance|example|abbrev)\b\s*(\S*)',l)
        if m: out.append((n,m.group(1),m.group(2)))
    return out
def enclosing(path,line):
    b=None
    for n,k,nm in decls(path):
        if n<=line: b=(k,nm if k!='example' and nm not in(':','(') else f'example@{n}')
    return b
claims_of={}
for f in glob.glob(SRC+'/Verif/Props/*.lean'):
    for n,k,nm in decls(f):
        m=re.match(r'c(\d\d+)_',nm)
        if k=='theorem' and m: claims_of.setdefault('C'+m.group(1),{}).setdefault(os.path.basename(f)[:-5],[]).append(nm)
def imports(mod,seen):
    if mod in seen: return
    seen.add(mod)
    p=f'{SRC}/'+mod.replace('.','/')+'.lean'
    for l in open(p):
        m=re.match(r'import (Verif\.\S+)',l)
        if m: imports(m.group(1),seen)
def run(m):
    mid,file,defn,old,new,what,claims=m[:7]
    sh(f'rm -rf {WRK}; cp -a {PRI} {WRK}')
    p=f'{WRK}/Verif/{file}'; s=open(p).read()
    # restrict the edit to the named definition
    names=re.split(r'\s*,\s*',defn)
    cnt=0
    for d in names:
        ms=list(re.finditer(r'\n(?:def|structure|abbrev) '+re.escape(d)+r'(?=\s).*?(?=\n\n|\n/--|\Z)',s,re.S))
        if not ms: return dict(id=mid,error='no def '+d)
        mm=([x for x in ms if old in x.group(0)] or ms)[-1]
        body=mm.group(0); c=body.count(old)
        if c==0: return dict(id=mid,error='old text not found in '+d)
        if c>1 and (len(m)<8 or m[7]!='all'): return dict(id=mid,error=f'old text occurs {c}x in {d}')
        s=s[:mm.start()]+body.replace(old,new)+s[mm.end():]; cnt+=c
    open(p,'w').write(s)
    mods=sorted({x for c in claims for x in claims_of[c]})
    r=sh(f'cd {WRK} && timeout 3000 lake build '+' '.join('Verif.Props.'+x for x in mods))
    o=r.stdout+r.stderr
    failed={}
    for e in re.finditer(r'^error: (Verif/\S+\.lean):(\d+):',o,re.M):
        d=enclosing(f'{WRK}/{e.group(1)}',int(e.group(2)))
        failed.setdefault(e.group(1)[6:-5].replace('/','.'),[])
        if d and d[1] not in failed[e.group(1)[6:-5].replace('/','.')]: failed[e.group(1)[6:-5].replace('/','.')].append(d[1])
    bad={'Verif.'+k for k in failed}
    # theorems of a failing property module that (transitively, textually) use a failing declaration
    tainted={}
    for k,v in failed.items():
        if not k.startswith('Props.'): continue
        path=f"{WRK}/Verif/{k.replace('.','/')}.lean"; L=open(path).read().split('\n'); D=decls(path)
        t=set(v)
        for (n,kd,nm),nx in zip(D,[x[0] for x in D[1:]]+[len(L)+1]):
            body='\n'.join(L[n-1:nx-1])
            if any(re.search(r'(?<![\w.])'+re.escape(x.split('.')[-1])+r"(?![\w'])",body) for x in t if not x.startswith('example')): t.add(nm)
        tainted[k]=t
    direct=[];blocked=[];survive=[]
    for c in claims:
        cd=[];cb=[];cs=[]
        for x,ths in claims_of[c].items():
            seen=set(); imports('Verif.Props.'+x,seen)
            for t in ths:
                if t in failed.get('Props.'+x,[]): cd.append(t)
                elif (seen-{'Verif.Props.'+x}) & bad or t in tainted.get('Props.'+x,()): cb.append(t)
                else: cs.append(t)
        direct+=cd; blocked+=cb; survive+=cs
        if not cd and not cb: survive.append('!!'+c)
    other=[f'{k}: {n}' for k,v in failed.items() for n in v if n not in direct]
    modelfail=any(k.startswith('Model') for k in failed)
    return dict(id=mid,definition=f'Verif/{file}: {defn}',edit=f'{old}  ->  {new}',bug=what,claims=claims,
        theorems_failed=direct,other_failed=other,blocked=blocked,survived=survive,model_does_not_compile=modelfail)
if __name__=='__main__':
    ns={}; exec(open(sys.argv[1]).read(),ns); M=ns['M']; want=set(sys.argv[2:])
    sh(f'rm -rf {PRI}; cp -a {os.environ.get("MUTSRC",SRC)} {PRI}')
    for m in M:
        if want and m[0] not in want: continue
        r=run(m); print(json.dumps(r),flush=True)
