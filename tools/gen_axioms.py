#!/usr/bin/env python3
"""Write AXIOMS.md: the axioms every manifest theorem depends on (run after `lake build`)."""
import json, subprocess, os, re, collections
root = os.path.join(os.path.dirname(os.path.abspath(__file__)), "..")
m = json.load(open(os.path.join(root, "MANIFEST.json")))
names = [t for c in m["claims"] for t in c["theorems"]]
src = "/tmp/ax_all.lean"
with open(src, "w") as f:
    f.write("import Verif\n")
    for n in names:
        f.write("#print axioms %s\n" % (n if n.startswith("Dissect.") else "Dissect." + n))
out = subprocess.run(["lake", "env", "lean", src], cwd=os.path.join(root, "lean"), capture_output=True, text=True).stdout
out = re.sub(r"\n\s+", " ", out)
res = {}
for l in out.splitlines():
    r = re.match(r"'(.*?)' (?:depends on axioms: \[(.*)\]|does not depend on any axioms)", l)
    if r:
        res[r.group(1)] = tuple(sorted(x.strip() for x in (r.group(2) or "").split(",") if x.strip()))
groups = collections.defaultdict(list)
for n in names:
    k = n if n.startswith("Dissect.") else "Dissect." + n
    groups[res.get(k, ("?? not found",))].append(n)
with open(os.path.join(root, "AXIOMS.md"), "w") as f:
    f.write("# Axioms of the manifest theorems\n\nGenerated by tools/gen_axioms.py from `#print axioms`.\n")
    for k in sorted(groups):
        f.write("\n## %s (%d theorems)\n\n" % (", ".join(k) if k else "no axioms", len(groups[k])))
        f.write(", ".join(groups[k]) + "\n")
for k in sorted(groups): print(k, len(groups[k]))
