"""Generate lean/Verif/SchemaData.lean from the dataclass sources in /repo (text level: `ast` only)."""
import ast, re
BASE = "/repo/ccsds_ndm/models/ndmxml2/ndmxml_2_0_0_%s.py"
ORDER = ["common_2_0", "aem_1_0", "apm_1_0", "cdm_1_0", "oem_2_0", "omm_2_0", "opm_2_0",
         "rdm_1_0", "tdm_2_0", "ndm_2_0", "master_2_0"]
classes = {}
for o in ORDER:
    for c in ast.parse(open(BASE % o).read()).body:
        if not isinstance(c, ast.ClassDef):
            continue
        bases = [ast.unparse(b) for b in c.bases]
        d = dict(name=c.name, bases=bases, file=o, lo=c.lineno, hi=c.end_lineno, meta=None,
                 members=[], fields=[], enum="Enum" in bases,
                 dc=any(ast.unparse(x) == "dataclass" for x in c.decorator_list))
        for s in c.body:
            if isinstance(s, ast.ClassDef) and s.name == "Meta":
                for x in s.body:
                    if ast.unparse(x.targets[0]) == "name":
                        d["meta"] = x.value.value
            elif isinstance(s, ast.Assign):
                d["members"].append((s.targets[0].id, s.value.value))
            elif isinstance(s, ast.AnnAssign):
                kw = {k.arg: k.value for k in s.value.keywords}
                md = {}
                if "metadata" in kw:
                    for k, v in zip(kw["metadata"].keys, kw["metadata"].values):
                        md[k.value] = v
                d["fields"].append((s.target.id, ast.unparse(s.annotation), kw, md))
        assert d["enum"] or d["dc"], c.name
        assert c.name not in classes, c.name
        classes[c.name] = d

def lname(n):
    return n[0].lower() + n[1:]

def q(s):
    return 'py "%s"' % s

def ty(t):
    if t in ("str", "int"):
        return "." + t
    if t == "Decimal":
        return ".dec"
    assert t in classes, t
    return "(.cls .%s)" % t

def fieldlist(name):
    d = classes[name]
    res = []
    for b in d["bases"]:
        if b in classes:
            res += fieldlist(b)
    for f in d["fields"]:
        assert all(f[0] != r[0] for r in res)
        res.append(f)
    return res

def field(f):
    nm, ann, kw, md = f
    m = re.fullmatch(r"(Optional|List)\[(\w+)\]", ann)
    init = not ("init" in kw and kw["init"].value is False)
    if m:
        t, islist = m[2], m[1] == "List"
    else:
        assert ann == "str" and not init
        t, islist = "str", False
    if islist:
        assert ast.unparse(kw["default_factory"]) == "list"
    kind = {"Element": ".elem", "Attribute": ".attr", None: ".text"}[md["type"].value if "type" in md else None]
    xml = md["name"].value if "name" in md else None
    return "⟨%s, %s, %s, %s, %s, %s⟩" % (
        q(nm), "some (%s)" % q(xml) if xml else "none", kind, ty(t),
        str(islist).lower(), str(init).lower())

out = []
w = out.append
w("import Verif.Py\n")
w("/-! GENERATED by `/verif/tools/gen_schema.py` from `/repo/ccsds_ndm/models/ndmxml2/*.py`; do not edit.\n")
w("The dataclass schema: every class and enumeration, with its fields in `__dataclass_fields__` order (inherited\n"
  "fields first).  Each entry cites the file and lines it was read from.  Validation facets (`min_inclusive`,\n"
  "`pattern`, `required`, ...) are dropped (`required` is in `SchemaFacets.lean`): neither this code base nor the `xsdata` parser it calls enforces them. -/\n")
w("namespace Ndm\n")
w("/-- The classes of `ccsds_ndm/models/ndmxml2` (dataclasses and enumerations). -/")
w("inductive Cls where")
for n in classes:
    w("  | %s" % n)
w("deriving DecidableEq, Repr\n")
w("""/-- How `xsdata` binds a field: `metadata["type"]` is `Element` / `Attribute`, or absent (element text). -/
inductive FKind where
  | elem | attr | text
deriving DecidableEq, Repr

/-- The type argument of `Optional[..]` / `List[..]` (`str`, `int`, `Decimal`, or a model class). -/
inductive FTy where
  | str | int | dec | cls (c : Cls)
deriving DecidableEq, Repr

/-- One dataclass field: python name, `metadata["name"]`, binding kind, type, `default_factory is list`, `init`. -/
structure Field where
  name : Str
  ccsds : Option Str
  kind : FKind
  ty : FTy
  isList : Bool
  init : Bool
deriving DecidableEq, Repr

/-- XML local name used by `xsdata`: `metadata["name"]` or, when absent, the python name. -/
def Field.xmlName (f : Field) : Str := f.ccsds.getD f.name
""")
w("/-- `vars(clazz)[\"__dataclass_fields__\"]`, in order; `[]` for enumerations. -/")
w("def Cls.fields : Cls → List Field")
for n, d in classes.items():
    if d["enum"]:
        continue
    w("  -- ndmxml2/ndmxml_2_0_0_%s.py:%d-%d%s" % (d["file"], d["lo"], d["hi"],
      " (inherits %s)" % ", ".join(d["bases"]) if d["bases"] else ""))
    fl = fieldlist(n)
    if not fl:
        w("  | .%s => []" % n)
    else:
        w("  | .%s => [\n      %s]" % (n, ",\n      ".join(field(f) for f in fl)))
w("  | _ => []\n")
w("/-- `_member_names_` and values of an enumeration, in order; `none` for dataclasses. -/")
w("def Cls.members : Cls → Option (List (Str × Str))")
for n, d in classes.items():
    if d["enum"]:
        w("  -- ndmxml2/ndmxml_2_0_0_%s.py:%d-%d" % (d["file"], d["lo"], d["hi"]))
        assert len(set(v for _, v in d["members"])) == len(d["members"])
        assert all(isinstance(v, str) for _, v in d["members"])
        w("  | .%s => some [%s]" % (n, ", ".join("(%s, %s)" % (q(a), q(b)) for a, b in d["members"])))
w("  | _ => none\n")
w("/-- `clazz.Meta.name` (inherited through the class body when the class itself declares none). -/")
w("def Cls.metaName : Cls → Option Str")
for n, d in classes.items():
    if d["meta"]:
        w("  | .%s => some (%s) -- %s:%d" % (n, q(d["meta"]), d["file"], d["lo"]))
w("  | _ => none\n")
w("/-- `(clazz.id, clazz.version)`: the `init=False` class attributes of the message classes; `none` elsewhere\n"
  "(attribute access then raises `AttributeError`). -/")
w("def Cls.idVersion : Cls → Option (Str × Str)")
for n, d in classes.items():
    fl = {f[0]: f for f in fieldlist(n)} if not d["enum"] else {}
    if "id" in fl:
        w("  | .%s => some (%s, %s)" % (n, q(fl["id"][2]["default"].value), q(fl["version"][2]["default"].value)))
w("  | _ => none\n")
w("/-- `clazz.__subclasses__()[0]` (ndm_xml_io.py:135); `none` when there is no subclass (`IndexError`). -/")
w("def Cls.firstSubclass : Cls → Option Cls")
seen = set()
for n, d in classes.items():
    for b in d["bases"]:
        if b in classes and b not in seen:
            seen.add(b)
            w("  | .%s => some .%s -- %s:%d" % (b, n, d["file"], d["lo"]))
w("  | _ => none\n")
w("/-- Every class, in source order. -/")
w("def Cls.all : List Cls := [%s]" % ", ".join("." + n for n in classes))
w("\ntheorem Cls.mem_all (c : Cls) : c ∈ Cls.all := by cases c <;> decide\n")
w("end Ndm")
open("/verif/lean/Verif/SchemaData.lean", "w").write("\n".join(out) + "\n")
print(len(classes))
