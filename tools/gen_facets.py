"""Generate lean/Verif/SchemaFacets.lean from the dataclass sources in /repo (text level: `ast` only)."""
import ast, pathlib
src = pathlib.Path(__file__).with_name("gen_schema.py").read_text()
exec(src[:src.index("out = []")])
out = []
w = out.append
w("import Verif.SchemaData\n")
w("/-! GENERATED by `/verif/tools/gen_facets.py` from `/repo/ccsds_ndm/models/ndmxml2/*.py`; do not edit.\n")
w("What the schema requires: the fields with `metadata[\"required\"]` (one) or `metadata[\"min_occurs\"]`, in field order. -/\n")
w("namespace Ndm\n")
w("/-- The fields that must be there, and how often at least. -/")
w("def Cls.least : Cls → List (Str × Nat)")
for n, d in classes.items():
    if d["enum"]:
        continue
    r = []
    for f in fieldlist(n):
        nm, ann, kw, md = f
        if "init" in kw and kw["init"].value is False:
            continue
        if "min_occurs" in md:
            r.append((nm, md["min_occurs"].value))
        elif "required" in md and md["required"].value:
            assert not ann.startswith("List")
            r.append((nm, 1))
    if r:
        w("  -- ndmxml2/ndmxml_2_0_0_%s.py:%d-%d%s" % (d["file"], d["lo"], d["hi"],
          " (inherits %s)" % ", ".join(d["bases"]) if d["bases"] else ""))
        w("  | .%s => [%s]" % (n, ", ".join("(%s, %d)" % (q(a), k) for a, k in r)))
w("  | _ => []\n")
w("end Ndm")
open("/verif/lean/Verif/SchemaFacets.lean", "w").write("\n".join(out) + "\n")
