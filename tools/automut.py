#!/usr/bin/env python3
"""Systematic mutation screen: for every definition of the model, apply single-token edits (comparison, arithmetic, constant,
swapped argument, dropped check) in a scratch copy and build until the first declaration outside Verif/Model stops checking.
Prints one JSON line per mutant. Survivors (the whole library still builds) are looked at by hand.
Usage: automut.py OUT.jsonl PER_DEF SEED [file ...]        (scratch copy of a built lean/ in $MUTSRC, default /tmp/snap)"""
import json, os, random, re, signal, subprocess, sys, time, glob
sys.path.insert(0,os.path.dirname(os.path.abspath(__file__)))
from mutate import decls
SRC=os.environ.get('MUTSRC','/tmp/snap'); WRK='/tmp/amwork'
OPS=[(r' < ',' ≤ '),(r' ≤ ',' < '),(r' > ',' ≥ '),(r' ≥ ',' > '),(r'<\.','<=.'),(r'<=\.','<.'),(r'>\.','<.'),(r'>=\.','>.'),
 (r' \+ ',' - '),(r' - ',' + '),(r'\+\.','-.'),(r'-\.','+.'),(r'\*\.','+.'),(r'/\.','*.'),(r' / ',' * '),(r' % ',' / '),(r' \* ',' + '),
 (r' == ',' != '),(r'==\.','<.'),(r' && ',' || '),(r' \|\| ',' && '),(r' ∧ ',' ∨ '),(r' ∨ ',' ∧ '),
 (r'\bwidth\b','height'),(r'\bheight\b','width'),(r' x y\b',' y x'),(r'\.1\b','.2.1'),(r'\.2\b','.1'),
 (r'\btrue\b','false'),(r'\bfalse\b','true'),
 (r'u32Add','u32Sub'),(r'u32Sub','u32Add'),(r'u32Mul','u32Add'),(r'usizeAdd','usizeSub'),(r'usizeSub','usizeAdd'),(r'usizeMul','usizeAdd'),
 (r'i32Add','i32Sub'),(r'i32Sub','i32Add'),(r'i16Add','i16Sub'),(r'u8Add','u8Sub'),
 (r'\bfloor\b','ceil'),(r'\bceil\b','floor'),(r'FloatOps\.round\b','FloatOps.floor'),
 (r'\.ok a\)','.ok default)'),(r'\bFloatOps\.min\b','FloatOps.max'),(r'\bFloatOps\.max\b','FloatOps.min'),
 (r'\+\+','++ [] ++ '),(r'\.d50','.d65'),(r'\.d65','.d50'),(r'\.reverse',''),(r'some\b','some')]
def sites(body):
    out=[]
    k=body.find(':=')
    for a,b in OPS[:-1]:
        for m in re.finditer(a,body):
            if m.start()<k or b=='++ [] ++ ': continue
            out.append((m.start(),m.end(),b,'op'))
    for m in re.finditer(r'(?<![\w.\]])(\d+)(?![\w.])',body):
        if m.start()>k: out.append((m.start(),m.end(),str(int(m.group(1))+1),'const'))
    out=[o for o in out if '--' not in body[body.rfind('\n',0,o[0]):o[0]]]
    for m in re.finditer(r'\n +check[^\n]*',body): out.append((m.start(),m.end(),'','drop'))
    return out
def gen(per,seed,files):
    rnd=random.Random(seed)
    for f in files:
        s=open(f'{SRC}/Verif/Model/{f}.lean').read()
        for m in re.finditer(r'\n(?:noncomputable )?def (\S+).*?(?=\n\n|\n/--|\nend|\Z)',s,re.S):
            b=m.group(0); c=sites(b)
            rnd.shuffle(c)
            seen=set();n=0
            for (i,j,new,kind) in c:
                key=(b[i:j],new)
                if key in seen: continue
                seen.add(key); n+=1
                yield f,m.group(1),m.start()+i,m.start()+j,new,b[max(0,i-30):i]+'⟦'+b[i:j]+' → '+new+'⟧'+b[j:j+30]
                if n>=per: break
def run(f,name,i,j,new):
    subprocess.run(f'rm -rf {WRK}; cp -a {SRC} {WRK}',shell=True)
    p=f'{WRK}/Verif/Model/{f}.lean'; s=open(p).read(); open(p,'w').write(s[:i]+new+s[j:])
    env=dict(os.environ,LEAN_NUM_THREADS='2')
    pr=subprocess.Popen(['nice','lake','build'],cwd=WRK,stdout=subprocess.PIPE,stderr=subprocess.STDOUT,text=True,env=env,start_new_session=True)
    t=time.time(); hit=None
    for l in pr.stdout:
        e=re.match(r'error: (Verif/\S+\.lean):(\d+):',l)
        if e: hit=(e.group(1),int(e.group(2))); break
    if hit:
        try: os.killpg(pr.pid,signal.SIGKILL)
        except ProcessLookupError: pass
    pr.wait()
    if not hit: return dict(result='survived' if pr.returncode==0 else 'broken')
    D=[x for x in decls(f'{WRK}/{hit[0]}') if x[0]<=hit[1]]
    r='invalid' if hit[0].startswith('Verif/Model') or hit[0].startswith('Verif/Core') else 'killed'
    return dict(result=r,at=f'{hit[0]}:{hit[1]} {D[-1][1]} {D[-1][2]}' if D else f'{hit[0]}:{hit[1]}',sec=round(time.time()-t))
if __name__=='__main__':
    out,per,seed=sys.argv[1],int(sys.argv[2]),int(sys.argv[3])
    files=sys.argv[4:] or [os.path.basename(x)[:-5] for x in sorted(glob.glob(f'{SRC}/Verif/Model/*.lean'))]
    done=set()
    if os.path.exists(out):
        for l in open(out): d=json.loads(l); done.add((d['file'],d['def'],d['edit']))
    for f,n,i,j,new,ctx in gen(per,seed,files):
        if (f,n,ctx) in done: continue
        r=run(f,n,i,j,new)
        with open(out,'a') as o: o.write(json.dumps(dict(file=f,**{'def':n},edit=ctx,**r),ensure_ascii=False)+'\n')
