"""Write MANIFEST.json.  Theorems are collected by their name prefix (C01_, C02_, ...) from
lean/Verif/Props; the status and note of each property are given in the table below.  Theorems are
listed under every property whose prefix they carry; `EXTRA` adds theorems with another prefix."""
import json, re, glob, os

ROOT = os.path.dirname(os.path.dirname(os.path.abspath(__file__)))

STATUS = {}
NOTE = {}
EXTRA = {}
exec(open(os.path.join(ROOT, "tools", "status.py")).read())

thms = {}
for f in sorted(glob.glob(os.path.join(ROOT, "lean/Verif/Props/**/*.lean"), recursive=True)):
    ns = []
    for line in open(f):
        m = re.match(r"namespace\s+(\S+)", line)
        if m:
            ns.append(m.group(1))
        m = re.match(r"end\s+(\S+)", line)
        if m and ns and ns[-1] == m.group(1):
            ns.pop()
        m = re.match(r"(?:@\[[^\]]*\]\s*)?theorem\s+(?:_root_\.)?((C\d\d+)_\S+)", line)
        if m:
            thms.setdefault(m.group(2), []).append(".".join(ns + [m.group(1)]))

props = [json.loads(l)["id"] for l in open(os.path.join(ROOT, "properties.jsonl"))]
claims = []
for p in props:
    t = thms.get(p, []) + EXTRA.get(p, [])
    if p not in STATUS:
        continue
    if STATUS[p] != "not_applicable" and not t:
        raise SystemExit(f"{p}: no theorem")
    claims.append({"property": p, "status": STATUS[p], "theorems": t, "note": NOTE.get(p, "")})
for p in thms:
    if p not in STATUS:
        print("warning: theorems without status:", p)
json.dump({"claims": claims}, open(os.path.join(ROOT, "MANIFEST.json"), "w"), indent=1,
          ensure_ascii=False)
print(len(claims), "claims of", len(props))
