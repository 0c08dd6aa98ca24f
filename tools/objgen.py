"""Turn tools/std/objects.txt into Lean (lean/Verif/Std/Objects/*.lean), beside the entries of the package's dictionaries.

usage: objgen.py          write the tables, with the grades of tools/std/objgrades.txt
       objgen.py grade    find the grades (build the tables first); they are checked in Lean
"""
import os
import re
import subprocess
import sys

import stdgen
import stdgrade

GRADES = os.path.join(stdgen.STD, 'objgrades.txt')
OUT = os.path.join(stdgen.OUT, 'Objects')


def read():
    out, cur = {}, None
    for line in open(os.path.join(stdgen.STD, 'objects.txt')):
        line = line.rstrip()
        if not line or line.startswith('--'):
            continue
        if line[0] != ' ':
            cur = out.setdefault(line, [])
            continue
        cls, rest = line.split(None, 1)
        ty, key = rest.split(' IDENTIFIED BY ')
        cur.append((cls, ty, key))
    return out


def modules(text):
    return {m for m in re.findall(r'\b(rfc\d+)\.', text)}


def key(es, e, k):
    m = re.fullmatch(r'(rfc\d+)\.(\S+)', k)
    if m:
        return key(es, es[m.group(1)], m.group(2))
    q = stdgen.P(k)
    parts = q.oid()
    if len(parts) == 1:
        f = e
        while parts[0] not in f.p.values:
            f = f.others[f.p.imports[parts[0]]]
        if f.p.values[parts[0]][0] == 'int':
            return '.int %d' % f.num(parts[0])
    return '.oid %s' % e.arcs(parts)


def ty(e, t):
    if t.startswith('package.'):
        return 'Verif.%s.%s.call.ty' % (e.key.capitalize(), t[8:])
    q = stdgen.P(t)
    q.expl = e.p.expl
    return e.ty(q.type(), 2)


def writes(m):
    """identifiers of shared dictionaries a module writes, in its order: (map, lean term of the key)"""
    text = open(os.path.join(stdgen.GEN, m.capitalize() + '.lean')).read()
    defs = dict(re.findall(r'def (\w+) : Py\.Entries :=\n((?:.|\n)*?)\n\n', text))
    out = []
    for mp, d in re.findall(r'\.(?:update|create) \(Py\.map \d+ "([\w.]+)"\) (?:Rfc\d+\.)?(\w+)', text):
        if not mp.split('.')[1].startswith('_'):
            out += [(mp, l.strip()) for l in defs[d].split('\n') if l.strip() not in ('[]', '')]
    return out


def main():
    stdgen.load_grades()
    es = stdgen.load()
    objs = read()
    if sys.argv[1:] == ['grade']:
        return grade(objs)
    grades = {}
    if os.path.exists(GRADES):
        for line in open(GRADES):
            x = line.split()
            grades[x[0], int(x[1])] = x[2:]
    unlisted = {}
    for x in grades:
        if x[1] < 0:
            unlisted.setdefault(x[0], []).append(grades[x])
    os.makedirs(OUT, exist_ok=True)
    ms = sorted(set(objs) | {f[:-5].lower() for f in os.listdir(stdgen.GEN) if f.startswith('Rfc') and writes(f[:-5].lower())})
    for m in ms:
        M = m.capitalize()
        deps = sorted({d.capitalize() for c, t, k in objs.get(m, []) for d in modules(t)} - {M})
        o = ['import Verif.Asn1.Objects', 'import Verif.%s.%s' % ('Std' if m in es else 'Gen', M)]
        o += ['import Verif.Std.%s' % d for d in deps]
        o += ['', '/-! The objects of %s (generated by tools/objgen.py from tools/std/objects.txt). -/' % m, '',
              'set_option maxRecDepth 100000', '', 'namespace Verif', 'namespace Std', 'namespace %s' % M, '', 'open Asn1 Spec.X680', '']
        rows = []
        for i, (c, t, k) in enumerate(objs.get(m, [])):
            g = grades.get((m, i), ['same'])
            if g[0] in ('refused', 'changed'):
                g = '(some (.%s [%s]))' % (g[0], ', '.join(g[1:]))
            elif g[0] == 'rewritten':
                g = '(some (.rewritten (%s)))' % ' '.join(g[1:])
            elif g[0] == 'none':
                g = 'none'
            else:
                g = '(some .%s)' % g[0]
            rows.append('⟨.%s, %s, %s, %s⟩' % (stdgen.lean(c), key(es, es[m], k), ty(es[m], t), g))
        o += ['def objects : List Object :=\n  [%s]' % ',\n   '.join(rows), '']
        o += ['def unlisted : List (ObjClass × Val) :=\n  [%s]' % ',\n   '.join(' '.join(u) for u in unlisted.get(m, [])), '']
        o += ['def registered : Objects := ⟨Verif.%s.asModule, objects, unlisted⟩' % M, '']
        o += ['end %s' % M, 'end Std', 'end Verif']
        stdgen.write(os.path.join(OUT, M + '.lean'), '\n'.join(o) + '\n')
        o = ['import Verif.Std.Objects.%s' % M, '', '/-! The entries %s.py makes, checked (generated by tools/objgen.py). -/' % m, '',
             'set_option maxRecDepth 100000', '', 'namespace Verif', 'namespace Std', '',
             'theorem %s.registered_ok : %s.registered.ok = true := by decide +kernel' % (M, M), '', 'end Std', 'end Verif']
        os.makedirs(os.path.join(OUT, 'Check'), exist_ok=True)
        stdgen.write(os.path.join(OUT, 'Check', M + '.lean'), '\n'.join(o) + '\n')
    Ms = [m.capitalize() for m in ms]
    o = ['import Verif.Gen.Package'] + ['import Verif.Std.Objects.Check.%s' % m for m in Ms]
    o += ['', '/-! The objects of the standards (generated by tools/objgen.py). -/', '', 'namespace Verif', 'namespace Std', '',
          'def registries : List Objects :=', '  [%s]' % ',\n   '.join('%s.registered' % m for m in Ms), '',
          'theorem registries_ok : ∀ s ∈ registries, s.ok = true := by', '  simp only [registries, List.forall_mem_cons]',
          '  exact ⟨%s, nofun⟩' % ', '.join('%s.registered_ok' % m for m in Ms), '']
    order = re.findall(r'(Rfc\d+)\.asModule', open(os.path.join(stdgen.GEN, 'Package.lean')).read())
    o += ['theorem registries_modules : ∀ s ∈ registries, s.module ∈ Package.modules := by', '  simp only [registries, List.forall_mem_cons]',
          '  exact ⟨%s, nofun⟩' % ',\n    '.join('List.mem_of_getElem? (i := %d) rfl' % order.index(m) for m in Ms), '', 'end Std', 'end Verif']
    stdgen.write(os.path.join(OUT, 'Table.lean'), '\n'.join(o) + '\n')
    print(len(ms), sum(map(len, objs.values())))


PROGRAM = '''
def one (m : String) (s : Std.Objects) : List String :=
  (s.objects.zipIdx.filterMap fun (o, i) =>
    match s.module.writes.find? (fun w => o.at w) with
    | none => some s!"{m} {i} none"
    | some w => let g := grade w.2.2 o.std; if g == "same" then none else some s!"{m} {i} {g}") ++
  ((s.module.writes.filter (fun w => Std.shared w.1 && !s.objects.any (fun o => o.at w))).zipIdx.map fun (w, i) =>
    let c := (Std.ObjClass.all.find? (fun c => Nat.beq c.map.idx w.1.idx)).getD .ALGORITHM
    s!"{m} -{i + 1} ({(repr c).pretty 100000}, {(repr w.2.1).pretty 100000})")
'''


def grade(objs):
    ms = sorted(f[:-5] for f in os.listdir(OUT) if f.startswith('Rfc'))
    o = ''.join('import Verif.Std.Objects.%s\n' % m for m in ms)
    o += 'import Verif.Asn1.Relax\nimport Verif.Asn1.Sample\nimport Verif.Asn1.Grade\n' + stdgrade.PROGRAM + PROGRAM
    o += '#eval (' + ' ++ '.join('one "%s" Std.%s.registered' % (m.lower(), m) for m in ms) + ').forM IO.println\n'
    open('/tmp/objgrade.lean', 'w').write(o)
    r = subprocess.run(['lake', 'env', 'lean', '/tmp/objgrade.lean'], cwd=stdgrade.LEAN, capture_output=True, text=True)
    if r.returncode:
        raise SystemExit(r.stdout[:2000] + r.stderr[:2000])
    out = r.stdout.replace('Verif.Asn1.', '').replace('Verif.Std.ObjClass', '').replace('Val.', '.').replace('Vals.', '.').replace('.cons', 'Vals.cons').replace('.nil', 'Vals.nil')
    open(GRADES, 'w').write(out)


main()
