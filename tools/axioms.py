"""Write AXIOMS.md: the axioms each theorem named in MANIFEST.json depends on, as reported by Lean."""
import json, pathlib, re, subprocess

ROOT = pathlib.Path(__file__).resolve().parent.parent
claims = json.load(open(ROOT / "MANIFEST.json"))["claims"]
names = []
for c in claims:
    names += [t for t in c["theorems"] if t not in names]
src = "import Verif\n" + "".join(f"#print axioms {n}\n" for n in names)
out = subprocess.run(["lake", "env", "lean", "--stdin"], input=src, text=True, capture_output=True, cwd=ROOT / "lean").stdout
axioms = {m[0]: re.sub(r"\s+", " ", m[1]) for m in re.findall(r"'([^']+)' depends on axioms: \[([^\]]*)\]", out)}
axioms |= {m: "none" for m in re.findall(r"'([^']+)' does not depend on any axioms", out)}
with open(ROOT / "AXIOMS.md", "w") as f:
    f.write("# Axioms of the theorems in MANIFEST.json\n\nWritten by `tools/axioms.py` from `#print axioms`.\n\n| property | theorem | axioms |\n| --- | --- | --- |\n")
    for c in claims:
        for t in c["theorems"]:
            f.write(f"| {c['property']} | {t.removeprefix('Ndm.')} | {axioms[t]} |\n")
print(len(names), sorted(set(axioms.values())))
