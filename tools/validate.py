#!/usr/bin/env python3
"""Compares the model with the test data of the code base (/repo/ccsds_ndm/tests/data/kvn), without running the code:
for each KVN file the object the model reads is compared with the XML file of the same name (the comparison of
test_read_file_against_xml), and the text the model writes with the KVN file (that of test_write_data)."""
import json, subprocess, tempfile, sys, glob, pathlib, xml.etree.ElementTree as ET
from decimal import Decimal, InvalidOperation
ROOT = pathlib.Path(__file__).resolve().parent.parent
D = "/repo/ccsds_ndm/tests/data/kvn"
files = sorted(glob.glob(D + "/*.kvn"))
PROGRAM = r'''import Verif.KvnIo

/-! Runs the model on the KVN files given as arguments and prints, as JSON, the object read and the text written.
Used by `tools/validate.py`; not part of the proofs. -/

open Ndm

def esc (s : Str) : String :=
  "\"" ++ String.join (s.map fun c =>
    if c = '"' then "\\\"" else if c = '\\' then "\\\\" else if c = '\n' then "\\n" else if c = '\t' then "\\t"
    else if c = '\r' then "\\r" else c.toString) ++ "\""

def commas (xs : List String) : String := ",".intercalate xs

partial def dump : Val → String
  | .none => "null"
  | .str s => esc s
  | .int i => "{\"int\":" ++ esc (pyStr (.int i)) ++ "}"
  | .dec d => "{\"dec\":" ++ esc d.toStr ++ "}"
  | .enum _ v => "{\"enum\":" ++ esc v ++ "}"
  | .list xs => "[" ++ commas (xs.map dump) ++ "]"
  | .obj c vs => "{\"cls\":" ++ esc (reprStr c).toList ++ ",\"vars\":[" ++ commas (vs.map fun p =>
      let f := c.fields.find? fun f => f.name = p.1
      let k := match f with
        | some f => match f.kind with
          | .attr => "attr"
          | .text => "text"
          | _ => "elem"
        | none => "?"
      let n := match f with
        | some f => f.xmlName
        | none => p.1
      "[" ++ esc n ++ ",\"" ++ k ++ "\"," ++ dump p.2 ++ "]") ++ "]}"

def err (e : PyErr) : String := "{\"error\":" ++ esc (reprStr e).toList ++ "}"

def main (args : List String) : IO Unit := do
  let mut out : List String := []
  for a in args do
    let src ← IO.FS.readFile a
    let r := kvnFromString src.toList
    let (o, w) := match r with
      | .ok v => (dump v, match kvnToString v with
        | .ok t => esc t
        | .error e => err e)
      | .error e => (err e, "null")
    out := out ++ ["{\"file\":" ++ esc a.toList ++ ",\"object\":" ++ o ++ ",\"text\":" ++ w ++ "}"]
  IO.println ("[" ++ commas out ++ "]")
'''
with tempfile.TemporaryDirectory() as tmp:
    prog = pathlib.Path(tmp) / "Validate.lean"
    prog.write_text(PROGRAM)
    r = subprocess.run(["lake", "env", "lean", "--run", str(prog)] + files, cwd=ROOT / "lean", capture_output=True, text=True)
if r.returncode: sys.exit(r.stdout + r.stderr)
def leaf(v):
    if isinstance(v, dict): return next(iter(v.values()))
    return v
def same(a, b):
    if a == b: return True
    try: return Decimal(a) == Decimal(b)
    except InvalidOperation: return False
def local(t): return t.split("}")[-1]
def cmp(v, e, path, bad):
    if not (isinstance(v, dict) and "cls" in v):
        t = (e.text or "").strip()
        if not same(leaf(v), t): bad.append((path, leaf(v), t))
        return
    elems, attrs, text = [], {}, None
    for n, k, x in v["vars"]:
        if x is None: continue
        if k == "attr": attrs[n] = leaf(x)
        elif k == "text": text = leaf(x)
        elif isinstance(x, list): elems += [(n, y) for y in x]
        else: elems.append((n, x))
    ea = {local(k): w for k, w in e.attrib.items() if "schema" not in k.lower()}
    if attrs != ea: bad.append((path, attrs, ea))
    if text is not None and not same(text, (e.text or "").strip()): bad.append((path, text, e.text))
    ee = [(local(c.tag), c) for c in e]
    if [n for n, _ in elems] != [n for n, _ in ee]: bad.append((path, [n for n, _ in elems], [n for n, _ in ee]))
    for (n, x), (m, c) in zip(elems, ee): cmp(x, c, path + "/" + n, bad)
def lines(t):
    l = [[x.strip() for x in s.split("=")] for s in t.split("\n") if s]
    return [x for x in l if x[0] != ""]
for x in json.loads(r.stdout):
    f = pathlib.Path(x["file"]); bad = []
    if "error" in x["object"]: print(f.name, "ERROR", x["object"]); continue
    xml = f.with_suffix(".xml")
    if xml.exists():
        root = ET.parse(xml).getroot()
        if local(root.tag) == "ndm": root = root[-1]  # a single message: the tags are stripped
        for k in ("id", "version"): root.attrib.pop(k, None)  # of the class, not of the object
        cmp(x["object"], root, "", bad)
    tb = []
    if isinstance(x["text"], dict): tb.append(x["text"])
    else:
        a, b = lines(x["text"]), lines(f.read_text())
        for i, w in enumerate(b):
            if i >= len(a): tb.append((i, None, w)); continue
            if " ".join(a[i]).replace(" ", "") == " ".join(w).replace(" ", ""): continue
            da, dw = a[i][0].split(), w[0].split()
            if not (len(da) <= len(dw) and all(same(p, q) for p, q in zip(da, dw))): tb.append((i, a[i], w))
    print(f.name, "object", "-" if not xml.exists() else "same" if not bad else bad[:4], "text", "same" if not tb else tb[:4])
