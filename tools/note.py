#!/usr/bin/env python3
"""note.py Cnn "text": set the manifest note of a property in claim_notes.json."""
import json, os, sys
p = os.path.join(os.path.dirname(os.path.abspath(__file__)), "claim_notes.json")
n = json.load(open(p))
n.setdefault(sys.argv[1], {})["note"] = sys.argv[2]
if len(sys.argv) > 3:
    n[sys.argv[1]]["status"] = sys.argv[3]
open(p, "w").write("{\n" + ",\n".join(f' "{k}": {json.dumps(v, ensure_ascii=False)}' for k, v in sorted(n.items())) + "\n}\n")
