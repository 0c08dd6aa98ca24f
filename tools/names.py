"""Write lean/Verif/Gen/Names.lean: the names of the classes, and which classes have the same name.

Usage: names.py names_witnesses.txt, where the file has lines `class class octets...`: octets that only the first of
the two classes reads.  Lean checks all of it (Verif/Props/Names.lean); nothing here is trusted.
"""
import os
import re
import sys

GEN = os.path.join(os.path.dirname(os.path.abspath(__file__)), '..', 'lean', 'Verif', 'Gen')
# accepted, though not component for component: proved in Verif/Props/Names.lean
BY_HAND = {('Rfc3852.DigestedData', 'Rfc2315.DigestedData'), ('Rfc5652.DigestedData', 'Rfc2315.DigestedData'),
           ('Rfc2634.IssuerSerial', 'Rfc3281.IssuerSerial'), ('Rfc2634.IssuerSerial', 'Rfc5755.IssuerSerial'),
           ('Rfc1155.ApplicationSyntax', 'Rfc1902.ApplicationSyntax')}
WIDTH = 32


def chars(s):
    return '[' + ', '.join("'%s'" % c for c in s) + ']'


def main():
    package = open(os.path.join(GEN, 'Package.lean')).read()
    modules = re.findall(r'(Rfc\d+)\.asModule', package[package.index('def modules'):].split('\n\n')[0])
    alias, classes = {}, {}
    for m in modules:
        text = open(os.path.join(GEN, m + '.lean')).read()
        for n, o in re.findall(r'^def (\S+) : Py\.Obj :=\n  (Rfc\d+\.\S+)$', text, re.M):
            alias[m + '.' + n] = o
        block = text[text.index('def classes :'):].split('\n\n')[0]
        classes[m] = re.findall(r'\("rfc\d+\.([^"]+)", ([\w.«»]+)\)', block)

    def origin(o):
        while o in alias:
            o = alias[o]
        return o

    groups = {}
    for m in modules:
        for n, o in classes[m]:
            g = groups.setdefault(n, [])
            if origin(o) not in g:
                g.append(origin(o))
    names = sorted(groups)
    place = {n: (i // WIDTH, i % WIDTH) for i, n in enumerate(names)}
    full = {m.lower() + '.' + n: origin(o) for m in modules for n, o in classes[m]}
    faults = {}
    for line in open(sys.argv[1]):
        old, new, *octets = line.split()
        faults.setdefault((full[old], full[new]), (old.split('.')[1], octets))
    out = ['import Verif.Gen.Package', '',
           '/-! The names of the classes of the package (generated by tools/names.py). -/', '',
           'namespace Verif', 'namespace Names', '',
           '/-- A name, and the definitions it has in the modules. -/',
           'structure Group where', '  name : List Char', '  defs : List Py.Obj',
           '  /-- Octets that the one definition reads and the other does not. -/',
           '  apart : List (Nat × Nat × List UInt8) := []',
           '  /-- The other definition reads what the one reads, but not component for component. -/',
           '  other : List (Nat × Nat) := []', '']

    def group(n):
        g = groups[n]
        apart = [(i, j, faults[p, q][1]) for i, p in enumerate(g) for j, q in enumerate(g) if (p, q) in faults]
        other = [(i, j) for i, p in enumerate(g) for j, q in enumerate(g) if (p, q) in BY_HAND]
        return '{ name := %s, defs := [%s]%s%s }' % (
            chars(n), ', '.join(g),
            apart and ',\n     apart := [' + ',\n       '.join('(%d, %d, [%s])' % (i, j, ', '.join(o)) for i, j, o in apart) + ']' or '',
            other and ',\n     other := [' + ', '.join('(%d, %d)' % p for p in other) + ']' or '')

    blocks = [names[i:i + WIDTH] for i in range(0, len(names), WIDTH)]
    for i, b in enumerate(blocks):
        out += ['def block%d : List Group :=' % i,
                '  [' + ',\n   '.join(group(n) for n in b) + ']', '']
    out += ['/-- All names, in order. -/', 'def blocks : List (List Group) :=',
            '  [' + ', '.join('block%d' % i for i in range(len(blocks))) + ']', '']
    for m in modules:
        out += ['def %s : List (Nat × Nat × Nat) :=' % m.lower(),
                '  [' + ', '.join('(%d, %d, %d)' % (place[n] + (groups[n].index(origin(o)),)) for n, o in classes[m]) + ']', '']
    out += ['/-- For every module its name, and for each of its classes where the name is and which definition it is. -/',
            'def table : List (List Char × List (Nat × Nat × Nat)) :=',
            '  [' + ',\n   '.join('(%s, %s)' % (chars(m.lower()), m.lower()) for m in modules) + ']', '',
            'end Names', 'end Verif', '']
    open(os.path.join(GEN, 'Names.lean'), 'w').write('\n'.join(out))


main()
