"""Writes AXIOMS.md: the axioms each theorem named in MANIFEST.json depends on.
Run after `lake build`; calls `#print axioms` on a temporary file outside /verif."""
import json, os, re, subprocess, tempfile
root = os.path.dirname(os.path.dirname(os.path.abspath(__file__)))
claims = json.load(open(f"{root}/MANIFEST.json"))["claims"]
names = [t for c in claims for t in c["theorems"]]
with tempfile.TemporaryDirectory() as d:
    p = f"{d}/ax.lean"
    open(p, "w").write("import Verif\n" + "\n".join("#print axioms " + t for t in names) + "\n")
    out = subprocess.run(["lake", "env", "lean", p], cwd=f"{root}/lean", capture_output=True, text=True).stdout
out = re.sub(r"\n\s+", " ", out)
ax = {}
for line in out.splitlines():
    m = re.match(r"'(\S+)' depends on axioms: \[(.*)\]", line)
    if m: ax[m.group(1)] = m.group(2)
    m = re.match(r"'(\S+)' does not depend", line)
    if m: ax[m.group(1)] = "none"
missing = [n for n in names if n not in ax]
assert not missing, missing
bad = {n: a for n, a in ax.items() if set(a.split(", ")) - {"propext", "Classical.choice", "Quot.sound", "none"}}
assert not bad, bad
groups = {}
for n in names: groups.setdefault(ax[n], []).append(n)
with open(f"{root}/AXIOMS.md", "w") as f:
    f.write("# Axioms each property theorem depends on\n\nPrinted by `#print axioms`; regenerate with `python3 tools/axioms.py` after a build.\n")
    for a in sorted(groups, key=len):
        f.write(f"\n## {a} ({len(groups[a])} theorems)\n\n")
        for n in groups[a]: f.write(f"* `{n}`\n")
print({a: len(g) for a, g in groups.items()})
