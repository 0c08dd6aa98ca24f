"""Write lean/Verif/Gen/Steps.lean: every object-valued definition of lean/Verif/Gen/Rfc*.lean.

One definition there is one statement of the Python modules, so the lists say what importing evaluates.
"""
import glob
import os
import re

GEN = os.path.join(os.path.dirname(os.path.abspath(__file__)), '..', 'lean', 'Verif', 'Gen')


def chunk(l, n):
    return [l[i:i + n] for i in range(0, len(l), n)]


def main():
    out = ['import Verif.Gen.Package', '', '/-!', '# Every statement that builds an object', '',
           'Generated by tools/steps.py from the other files of this directory.', '-/', '', 'namespace Verif']
    mods = []
    for path in sorted(glob.glob(os.path.join(GEN, 'Rfc*.lean')), key=lambda p: int(re.search(r'(\d+)', os.path.basename(p)).group())):
        name = os.path.basename(path)[:-5]
        mods.append(name)
        text = open(path).read()
        objs = re.findall(r'^def (\S+) : Py\.Obj :=', text, re.M)
        protos = re.findall(r'^def (\S+) : Py\.Proto :=', text, re.M)
        for kind, items, ty in (('steps', objs, 'Obj'), ('fills', protos, 'Proto')):
            out += ['', 'def %s.%s : List (String × Py.%s) :=' % (name, kind, ty),
                    '  [' + ',\n   '.join('("%s.%s", %s.%s)' % (name.lower(), o, name, o) for o in items) + ']']
    for kind, ty in (('steps', 'Obj'), ('fills', 'Proto')):
        out += ['', 'def Package.%s : List (List (String × Py.%s)) :=' % (kind, ty),
                '  [' + ',\n   '.join('%s.%s' % (m, kind) for m in mods) + ']']
    out += ['', 'end Verif', '']
    open(os.path.join(GEN, 'Steps.lean'), 'w').write('\n'.join(out))


main()
