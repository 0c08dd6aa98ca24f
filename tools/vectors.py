"""Extract the DER test vectors of /repo/tests (read as text) and write a Lean
script that runs the codec model on them.

usage: vectors.py /repo OUT.lean ; then `lake env lean OUT.lean` in lean/
"""
import ast
import base64
import glob
import os
import sys


def spec_of(cls):
    for f in cls.body:
        if isinstance(f, ast.FunctionDef) and f.name == 'setUp':
            for s in f.body:
                if isinstance(s, ast.Assign) and isinstance(s.targets[0], ast.Attribute) \
                        and s.targets[0].attr == 'asn1Spec' and isinstance(s.value, ast.Call) \
                        and isinstance(s.value.func, ast.Attribute) and not s.value.args \
                        and isinstance(s.value.func.value, ast.Name):
                    return s.value.func.value.id, s.value.func.attr
    return None


def main(repo, out):
    vecs = []
    for path in sorted(glob.glob(os.path.join(repo, 'tests', 'test_rfc*.py'))):
        tree = ast.parse(open(path).read())
        for cls in tree.body:
            if not isinstance(cls, ast.ClassDef):
                continue
            sp = spec_of(cls)
            if not sp:
                continue
            for s in cls.body:
                if isinstance(s, ast.Assign) and isinstance(s.value, ast.Constant) and isinstance(s.value.value, str):
                    try:
                        b = base64.b64decode(s.value.value.encode())
                    except Exception:
                        continue
                    if len(b) > 4:
                        vecs.append((os.path.basename(path)[:-3] + '.' + cls.name + '.' + s.targets[0].id, sp, b))
    mods = sorted({v[1][0] for v in vecs})
    with open(out, 'w') as f:
        f.write('import Verif.Gen.Package\nimport Verif.Asn1.Open\nimport Verif.Asn1.Keep\nimport Verif.Py.Import\n')
        f.write('''open Verif Verif.Asn1
/-- The registries when every module has been imported. -/
def registry : Registry := fun m k =>
  ((Package.modules.flatMap (·.writes)).reverse.find? (fun w => w.1.idx == m.idx && w.2.1 == k)).map (·.2.2)
def hexv (c : Char) : Nat := if c.toNat < 58 then c.toNat - 48 else c.toNat - 87
def unhex : List Char → List UInt8
  | a :: b :: r => UInt8.ofNat (hexv a * 16 + hexv b) :: unhex r
  | _ => []
def run (n : String) (o : Py.Obj) (h : String) : IO Bool := do
  let b := unhex h.toList
  match decode o.call.ty b with
  | none => IO.println s!"{n}: decode failed"; return false
  | some (v, rest) =>
    if !rest.isEmpty then IO.println s!"{n}: rest"
    match encode o.call.ty v with
    | none => IO.println s!"{n}: encode failed"; return false
    | some c =>
      if c != b then IO.println s!"{n}: encoding differs"; return false
      match odecode registry 20 o.call.ty b with
      | none => IO.println s!"{n}: decode with open types failed"; return false
      | some (v, _) =>
        match oencode o.call.ty v with
        | none => IO.println s!"{n}: encode with open types failed"; return false
        | some c =>
          if c == b then return true
          if oencodeKeep o.call.ty v == some b then IO.println s!"{n}: same with omitEmptyOptionals=False"; return true
          IO.println s!"{n}: encoding with open types differs"; return false
''')
        f.write('def vectors : List (IO Bool) := [\n')
        for n, (m, c), b in vecs:
            f.write('  run "%s" %s.%s "%s",\n' % (n, m.capitalize(), c, b.hex()))
        f.write('  pure false]\n#eval do\n  let r ← vectors.mapM id\n  IO.println s!"{(r.filter id).length} of %d"\n' % len(vecs))


main(*sys.argv[1:])
