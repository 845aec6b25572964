#!/usr/bin/env python3
"""Generate MANIFEST.json: theorems named cNN_* in lean/Verif/Props, status/notes from tools/notes.json."""
import json, re, glob, os
root = os.path.dirname(os.path.dirname(os.path.abspath(__file__)))
props = [json.loads(l)["id"] for l in open(root + "/properties.jsonl")]
notes = json.load(open(root + "/tools/notes.json"))
th = {}
for f in sorted(glob.glob(root + "/lean/Verif/Props/*.lean")):
    ns = "Imgproc"
    for line in open(f):
        m = re.match(r"(?:private )?theorem (c(\d\d+)_\w+'?)", line)
        if m:
            th.setdefault("C" + m.group(2), []).append(ns + "." + m.group(1))
claims = []
for p in props:
    ts = th.get(p, [])
    n = notes.get(p, {})
    if not ts:
        continue
    partial = any(t.endswith("_partial") for t in ts)
    status = n.get("status", "partial" if partial else "proved")
    claims.append({"property": p, "status": status, "theorems": ts, "note": n.get("note", "")})
json.dump({"claims": claims}, open(root + "/MANIFEST.json", "w"), indent=1)
print(len(claims), "claims;", [p for p in props if p not in th], "missing")
