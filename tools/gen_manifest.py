#!/usr/bin/env python3
"""Generates /verif/MANIFEST.json from the theorem names Cxx_... in lean/Verif/Props/*.lean and the notes below."""
import json, re, glob, os, sys
root = os.path.dirname(os.path.dirname(os.path.abspath(__file__)))
sys.path.insert(0, os.path.join(root, "tools"))
from manifest_notes import NOTES, NOT_APPLICABLE
thms = {}
for f in sorted(glob.glob(os.path.join(root, "lean/Verif/Props/*.lean"))):
    ns = []
    for line in open(f, encoding="utf-8"):
        m = re.match(r"^namespace\s+(\S+)", line)
        if m: ns.append(m.group(1))
        m = re.match(r"^end\s+(\S+)", line)
        if m and ns and ns[-1] == m.group(1): ns.pop()
        m = re.match(r"^(?:@\[.*?\]\s*)?theorem\s+(C\d\d+_\w+)", line)
        if m:
            thms.setdefault(m.group(1).split("_")[0], []).append(".".join(ns + [m.group(1)]))
claims = []
for line in open(os.path.join(root, "properties.jsonl")):
    pid = json.loads(line)["id"]
    t = thms.get(pid, [])
    note = NOTES.get(pid, "")
    if t:
        part = any(x.endswith("_partial") or x.endswith("_refuted") for x in t)
        status = "partial" if part else "proved"
        claims.append(dict(property=pid, status=status, theorems=t, note=note))
    elif pid in NOT_APPLICABLE:
        claims.append(dict(property=pid, status="not_applicable", theorems=[], note=NOT_APPLICABLE[pid]))
    else:
        print("no theorem yet:", pid)
json.dump({"claims": claims}, open(os.path.join(root, "MANIFEST.json"), "w"), indent=1)
print({s: sum(c["status"] == s for c in claims) for s in ("proved", "partial", "not_applicable")})
