#!/usr/bin/env python3
"""Writes MANIFEST.json from the theorem names in lean/Verif/Props (c07_... belongs to C07)."""
import re, json, glob, os
os.chdir(os.path.join(os.path.dirname(__file__), ".."))
notes = json.load(open("tools/notes.json")) if os.path.exists("tools/notes.json") else {}
ths = {}
for p in sorted(glob.glob("lean/Verif/Props/*.lean")):
    ns = []
    for l in open(p):
        m = re.match(r"(namespace|end) (\S+)", l)
        m2 = re.match(r"(?:private )?theorem (c(\d\d+)_\w+)", l)
        if m2:
            ths.setdefault("C" + m2.group(2), []).append("Rfsed.Props." + m2.group(1))
claims = []
for l in open("properties.jsonl"):
    pid = json.loads(l)["id"]
    n = notes.get(pid, {})
    t = ths.get(pid, [])
    if not t and not n: continue
    st = n.get("status") or ("partial" if not t or all(x.endswith("_partial") for x in t) else "proved")
    claims.append({"property": pid, "status": st, "theorems": t, "note": n.get("note", "")})
json.dump({"claims": claims}, open("MANIFEST.json", "w"), indent=1)
print(len(claims), [c["property"] for c in claims if c["status"] != "proved"])
