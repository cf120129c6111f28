#!/usr/bin/env python3
"""Write AXIOMS.md: the axioms each theorem of MANIFEST.json depends on, as printed by Lean.  Needs a built lean/."""
import collections, json, os, re, subprocess, tempfile
root = os.path.abspath(os.path.join(os.path.dirname(__file__), ".."))
claims = json.load(open(os.path.join(root, "MANIFEST.json")))["claims"]
names = [t for c in claims for t in c["theorems"]]
with tempfile.NamedTemporaryFile("w", suffix=".lean") as f:
    f.write("import Verif\n" + "".join("#print axioms %s\n" % t for t in names))
    f.flush()
    out = subprocess.run(["lake", "env", "lean", f.name], cwd=os.path.join(root, "lean"), text=True,
                         stdout=subprocess.PIPE, check=True).stdout
found = {}
for name, ax in re.findall(r"'([\w.]+)' (?:does not depend on any axioms|depends on axioms: \[([^\]]*)\])", out):
    found[name] = ", ".join(sorted(x.strip() for x in ax.split(",") if x.strip()))
assert set(found) == set(names), set(names) ^ set(found)
groups = collections.defaultdict(list)
for t in names:
    groups[found[t]].append(t)
with open(os.path.join(root, "AXIOMS.md"), "w") as f:
    f.write("# Axioms of the theorems of MANIFEST.json\n\nWritten by `tools/gen_axioms.py` from the output of "
            "`#print axioms`. All names are in the namespace `Verif.Props`.\n")
    for ax in sorted(groups, key=lambda a: (len(a), a)):
        f.write("\n## %s (%d)\n\n" % (ax or "none", len(groups[ax])))
        f.write(", ".join(t.split(".")[-1] for t in groups[ax]) + "\n")
print({k: len(v) for k, v in groups.items()})
