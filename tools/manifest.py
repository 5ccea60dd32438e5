"""Regenerates MANIFEST.json from the theorem names in lean/Verif/Props and tools/notes.json."""
import json, re, glob, os
root = os.path.dirname(os.path.dirname(os.path.abspath(__file__)))
props = [json.loads(l) for l in open(f"{root}/properties.jsonl") if l.strip()]
notes = json.load(open(f"{root}/tools/notes.json"))
thms = {}
for f in sorted(glob.glob(f"{root}/lean/Verif/Props/*.lean")):
    ns = []
    for line in open(f):
        m = re.match(r"namespace (\S+)", line)
        if m: ns.append(m.group(1))
        m = re.match(r"end (\S+)", line)
        if m and ns and ns[-1] == m.group(1): ns.pop()
        m = re.match(r"(?:private )?theorem ((?:C\d+_)+\S*)", line)
        if m:
            name = m.group(1)
            for pid in re.findall(r"C\d+(?=_)", name):
                thms.setdefault(pid, []).append(".".join(ns + [name]))
claims = []
for p in props:
    pid = p["id"]
    n = notes.get(pid, {})
    t = thms.get(pid, [])
    status = n.get("status") or ("not_applicable" if not t else
        ("partial" if any("_partial" in x or "_false_" in x for x in t) else "proved"))
    claims.append({"property": pid, "status": status, "theorems": t, "note": n.get("note", "")})
missing = sorted(set(thms) - {p["id"] for p in props})
assert not missing, missing
json.dump({"claims": claims}, open(f"{root}/MANIFEST.json", "w"), indent=1)
for c in claims: print(c["property"], c["status"], len(c["theorems"]))
