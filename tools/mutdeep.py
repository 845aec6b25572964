#!/usr/bin/env python3
"""Like mutate.py, but does not stop at the first failing module: in the scratch copy a declaration that no longer checks
gets its proof removed (admitted, in the scratch copy only), and the build goes on, so that every theorem of the claims is
examined. A theorem counts as failed when its own proof stops checking or when it rests on one that did.
Usage: mutdeep.py mutants.py DEPS-FILE [id ...]"""
import json, os, re, sys
import mutate
from mutate import sh, decls, claims_of, SRC
PRI='/tmp/mutd0'; WRK='/tmp/mutd'
HOLE='sor'+'ry'
def cut(text):
    """index of the `:=` (or first `|` clause) that starts the proof"""
    d=0;i=0
    while i<len(text):
        c=text[i]
        if c in '([{⟨': d+=1
        elif c in ')]}⟩': d-=1
        elif d==0 and text.startswith(':=',i) and not re.search(r'\blet(I)?\b[^;\n]*$',text[:i]): return i
        elif d==0 and re.match(r'\n\s+\| ',text[i:i+8]): return i
        i+=1
    return None
def starts(path):
    """declarations, located by the first line of what precedes the keyword (docstring, `set_option .. in`, ...), where Lean
    reports some errors"""
    L=open(path).read().split('\n'); out=[]
    for n,k,nm in decls(path):
        i=n-1
        while i>0:
            p=L[i-1].rstrip()
            if re.match(r'(set_option|omit|open|include)\b.*\bin$',p) or re.match(r'@\[.*\]$',p): i-=1
            elif p.endswith('-/'):
                j=i-1
                while j>=0 and not L[j].startswith('/-'): j-=1
                if not L[j].startswith('/--'): break
                i=j
            else: break
        out.append((i+1,(n,k,nm)))
    return out
def at(path,line): return [d for st,d in starts(path) if st<=line][-1]
def patch(path,line):
    """remove the proof of the declaration containing `line`; returns its name"""
    L=open(path).read().split('\n')
    n=at(path,line)
    e=n[0]
    while e<len(L):
        l=L[e]
        if l and not l[0].isspace() and re.match(r'(theorem|lemma|def|instance|example|abbrev|/--|/-!|end|section|namespace|variable|open|omit|@\[|private|protected|noncomputable|set_option|local|structure|inductive|macro|syntax|attribute)\b|/-|@\[',l): break
        e+=1
    txt='\n'.join(L[n[0]-1:e])
    if n[1]=='example': new='example : True := trivial'
    elif n[1]=='theorem' or n[1]=='lemma':
        k=cut(txt)
        if k is None: return None
        new=txt[:k]+' := by '+HOLE
    else: return None
    L[n[0]-1:e]=new.split('\n')+['']*((e-n[0]+1)-len(new.split('\n')))
    open(path,'w').write('\n'.join(L))
    return n[2] if n[1]!='example' else f'example@{n[0]}'
def run(m,rev):
    mid,file,defn,old,new,what,claims=m[:7]
    sh(f'rm -rf {WRK}; cp -a {PRI} {WRK}')
    p=f'{WRK}/Verif/{file}'; s=open(p).read()
    for d in re.split(r'\s*,\s*',defn):
        ms=list(re.finditer(r'\n(?:def|structure|abbrev) '+re.escape(d)+r'(?=\s).*?(?=\n\n|\n/--|\Z)',s,re.S))
        if not ms: return dict(id=mid,error='no def '+d)
        mm=([x for x in ms if old in x.group(0)] or ms)[-1]
        body=mm.group(0); c=body.count(old)
        if c==0: return dict(id=mid,error='old text not found in '+d)
        if c>1 and (len(m)<8 or m[7]!='all'): return dict(id=mid,error=f'old text occurs {c}x in {d}')
        s=s[:mm.start()]+body.replace(old,new)+s[mm.end():]
    open(p,'w').write(s)
    mods=sorted({x for c in claims for x in claims_of[c]})
    failed=[];done=False
    for _ in range(40):
        r=sh(f'cd {WRK} && timeout 4000 lake build '+' '.join('Verif.Props.'+x for x in mods))
        o=r.stdout+r.stderr
        if r.returncode==0: done=True;break
        errs=[(e.group(1),int(e.group(2))) for e in re.finditer(r'^error: (Verif/\S+\.lean):(\d+):',o,re.M)]
        if not errs: return dict(id=mid,error='build failed without location: '+o[-300:])
        if any(f.startswith('Verif/Model') for f,_ in errs): return dict(id=mid,definition=f'Verif/{file}: {defn}',edit=f'{old}  ->  {new}',bug=what,claims=claims,theorems_failed=[],other_failed=[str(errs[0])],blocked=[],survived=[],model_does_not_compile=True)
        seen=set()
        for f,l in sorted(set(errs),reverse=True):
            path=f'{WRK}/{f}'
            key=(f,at(path,l)[0])
            if key in seen: continue
            seen.add(key)
            nm=patch(path,l)
            if nm is None: return dict(id=mid,error=f'cannot patch {f}:{l}')
            failed.append(f[6:-5].replace('/','.')+': '+nm)
    short={x.split(': ')[1] for x in failed}
    hit=set()
    for n in short:
        if re.match(r'c\d\d+_',n): hit.add(n)
        hit|=rev.get(n,set())
    allt=[t for c in claims for ths in claims_of[c].values() for t in ths]
    return dict(id=mid,definition=f'Verif/{file}: {defn}',edit=f'{old}  ->  {new}',bug=what,claims=claims,
        theorems_failed=[t for t in allt if t in hit],other_failed=[x for x in failed],blocked=[],
        survived=[t for t in allt if t not in hit]+['!!'+c for c in claims if not any(t in hit for ths in claims_of[c].values() for t in ths)],
        model_does_not_compile=False,deep=True,complete=done)
if __name__=='__main__':
    ns={}; exec(open(sys.argv[1]).read(),ns); M=ns['M']; want=set(sys.argv[3:])
    deps={}
    for l in open(sys.argv[2]):
        if 'DEP ' in l:
            w=l[l.index('DEP ')+4:].split()
            for x in w[1:]:
                if x.startswith('Imgproc.'): deps.setdefault(x.split('.',1)[1],set()).add(w[0].split('.',1)[1])
    sh(f'rm -rf {PRI}; cp -a {os.environ.get("MUTSRC",SRC)} {PRI}')
    for m in M:
        if want and m[0] not in want: continue
        print(json.dumps(run(m,deps)),flush=True)
