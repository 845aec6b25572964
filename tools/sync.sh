#!/bin/bash
# regenerate Verif.lean imports, MANIFEST.json; build; commit; vcheck
cd /verif/lean && python3 - <<'P'
import glob
mods=[]
for d in ['Core','Model','Spec','Proofs','Props']:
    for f in sorted(glob.glob(f'Verif/{d}/*.lean')):
        mods.append(f[:-5].replace('/','.'))
open('Verif.lean','w').write(''.join(f'import {m}\n' for m in mods))
P
lake build 2>&1 | grep -A10 "error" && exit 1
cd .. && python3 tools/props.py && python3 tools/manifest.py && tools/axioms.sh > /tmp/ax.txt && python3 tools/results.py && git add -A && git commit -qm "$1" && vcheck | tail -1
