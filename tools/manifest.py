#!/usr/bin/env python3
"""Regenerate lean/Verif.lean (imports) and MANIFEST.json (theorems found in lean/Verif/Props)."""
import glob, json, os, re
root = os.path.dirname(os.path.dirname(os.path.abspath(__file__)))
lean = os.path.join(root, "lean")
mods = sorted(p[len(lean) + 1:-5].replace("/", ".") for p in glob.glob(lean + "/Verif/**/*.lean", recursive=True))
with open(lean + "/Verif.lean", "w") as f:
    f.write("".join(f"import {m}\n" for m in mods))
thms = {}
for p in sorted(glob.glob(lean + "/Verif/Props/*.lean")):
    ns = []
    for line in open(p):
        m = re.match(r"namespace (\S+)", line)
        if m: ns.append(m.group(1))
        m = re.match(r"end (\S+)", line)
        if m and ns and ns[-1] == m.group(1): ns.pop()
        m = re.match(r"theorem (C\d\d+_\w+)", line)
        if m: thms.setdefault(m.group(1).split("_")[0], []).append(".".join(ns + [m.group(1)]))
import importlib.util
spec = importlib.util.spec_from_file_location("notes", os.path.join(root, "tools", "notes.py"))
notes = importlib.util.module_from_spec(spec); spec.loader.exec_module(notes)
claims = []
for line in open(root + "/properties.jsonl"):
    pid = json.loads(line)["id"]
    t = thms.get(pid, [])
    note = notes.NOTES.get(pid, "")
    if not t:
        print("no theorem for", pid)
        status = "partial"
        note = note or "Modelled; theorem not yet written."
    else:
        status = "partial" if any(x.endswith("_partial") for x in t) else "proved"
    status = notes.STATUS.get(pid, status)
    claims.append({"property": pid, "status": status, "theorems": t, "note": note})
json.dump({"claims": claims}, open(root + "/MANIFEST.json", "w"), indent=1, ensure_ascii=False)
print(sum(len(c["theorems"]) for c in claims), "theorems")
