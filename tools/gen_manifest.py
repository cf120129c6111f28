#!/usr/bin/env python3
"""Write MANIFEST.json: the theorems named Cnn_... in lean/Verif/Props, with the status and note given below."""
import json, re, glob, collections, os
root = os.path.join(os.path.dirname(__file__), "..")
NOTES = json.load(open(os.path.join(root, "tools", "claim_notes.json")))
thms = collections.defaultdict(list)
for f in sorted(glob.glob(os.path.join(root, "lean/Verif/Props/*.lean"))):
    for m in re.finditer(r"^theorem ((C\d+)_\w+)", open(f).read(), re.M):
        thms[m.group(2)].append("Verif.Props." + m.group(1))
claims = []
for line in open(os.path.join(root, "properties.jsonl")):
    pid = json.loads(line)["id"]
    n = NOTES.get(pid, {})
    if not thms[pid] and n.get("status") != "not_applicable":
        continue
    partial = any(t.endswith("_partial") for t in thms[pid])
    status = n.get("status", "partial" if partial else "proved")
    claims.append({"property": pid, "status": status, "theorems": thms[pid], "note": n.get("note", "")})
json.dump({"claims": claims}, open(os.path.join(root, "MANIFEST.json"), "w"), indent=1, ensure_ascii=False)
print(collections.Counter(c["status"] for c in claims))
