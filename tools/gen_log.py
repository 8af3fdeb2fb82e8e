#!/usr/bin/env python3
"""raw.jsonl (one line per mutant run) -> LOG.jsonl (one line per attempt, in the documented form)."""
import json, os, sys
H = os.path.join(os.path.dirname(os.path.abspath(__file__)), "..", "seeded")
sys.path.insert(0, H)
from log_notes import NOTES, EXTRA
last = {}
for l in open(os.path.join(H, "raw.jsonl")):
    r = json.loads(l); last[r["id"]] = r
n = 0
with open(os.path.join(H, "LOG.jsonl"), "w") as f:
    for r in list(sorted(last.values(), key=lambda r: r["id"])):
        if r.get("model_error"): continue
        note = NOTES.get(r["id"], {})
        d = {"id": r["id"], "definition": r["definition"], "file": r["file"], "edit": r["edit"], "claim_broken": r["claim"],
             "killed": r["killed"], "theorems_failed": r["failed"], "property_modules_no_longer_proved": r["blocked"],
             "theorems_tightened": note.get("tightened", [])}
        if "note" in note: d["note"] = note["note"]
        f.write(json.dumps(d) + "\n"); n += 1
    from log_notes import AUTO
    import re, glob
    A = os.path.join(H, "raw_auto.jsonl")
    props = {}
    for g in glob.glob(os.path.join(H, "..", "lean", "Verif", "Props", "*.lean")):
        props["Verif.Props." + os.path.basename(g)[:-5]] = sorted(set(re.findall(r"^theorem (C\d+)_", open(g).read(), re.M)), key=lambda c: int(c[1:]))
    auto = {}
    for l in (open(A) if os.path.exists(A) else []):
        r = json.loads(l); auto[r["id"]] = r
    for r in auto.values():
        if r["status"] == "ill-typed": continue
        note = AUTO.get(r["id"], {})
        mods = set(x.replace("/", ".").replace(".lean", "") for x in r["failed"]) | set(r["blocked"])
        cl = sorted(set(c for m in mods for c in props.get(m, [])), key=lambda c: int(c[1:]))
        d = {"id": r["id"], "random": True, "definition": r["definition"], "file": r["file"], "edit": r["edit"],
             "claim_broken": note.get("claim", "random edit; claims in the modules that no longer build: " + ", ".join(cl) if cl else "none"),
             "killed": r["status"] == "killed", "theorems_failed": r["failed"], "property_modules_no_longer_proved": r["blocked"],
             "theorems_tightened": note.get("tightened", [])}
        if "note" in note: d["note"] = note["note"]
        if r["status"] != "killed" and not note: print("unexplained survivor", r["id"], r["definition"], r["edit"])
        f.write(json.dumps(d) + "\n"); n += 1
    E = os.path.join(H, "raw_err.jsonl")
    for l in (open(E) if os.path.exists(E) else []):
        r = json.loads(l)
        note = AUTO.get(r["id"], {})
        d = {"id": r["id"], "wrong_exception": True, "definition": r["definition"], "file": r["file"], "edit": r["edit"],
             "claim_broken": note.get("claim", "the exception raised by this branch"), "killed": r["status"] == "killed",
             "theorems_failed": r["failed"], "theorems_tightened": note.get("tightened", [])}
        if "note" in note: d["note"] = note["note"]
        if r["status"] != "killed" and not note: print("unexplained survivor", r["id"], r["definition"], r["edit"])
        f.write(json.dumps(d) + "\n"); n += 1
    for d in EXTRA:
        f.write(json.dumps(d) + "\n"); n += 1
print(n, sum(1 for r in last.values() if r.get("model_error")), [r["id"] for r in last.values() if not r["killed"]])
