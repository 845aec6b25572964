#!/bin/bash
# Print the axioms of every manifest theorem (uses the built project) -> stdout "name: axioms"
cd /verif/lean
python3 - <<'P' > /tmp/axioms_check.lean
import json
print("import Verif\nimport Lean.Util.CollectAxioms\nopen Lean")
names=[t for c in json.load(open('/verif/MANIFEST.json'))['claims'] for t in c['theorems']]
print("run_cmd do\n  for n in [")
print(",\n".join("    `"+n for n in names))
print("  ] do\n    let a ← Lean.collectAxioms n\n    logInfo m!\"AX {n}: {a.toList}\"")
P
lake env lean /tmp/axioms_check.lean 2>&1 | grep -o "AX .*" | sed 's/^AX //'
