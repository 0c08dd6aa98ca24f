"""Write lean/Verif/Gen/Successors.lean: the classes that a superseded and a superseding module share.

Usage: compat.py compat_witnesses.txt, where the file has lines `old-class new-class octets...` for the pairs that
are not compatible.  Lean checks both lists (Verif/Props/Compat.lean); nothing here is trusted.
"""
import os
import re
import sys

GEN = os.path.join(os.path.dirname(os.path.abspath(__file__)), '..', 'lean', 'Verif', 'Gen')
PAIRS = [(2459, 3280), (3280, 5280), (2459, 5280), (2315, 3852), (3852, 5652), (2315, 5652), (2560, 6960),
         (2511, 4211), (5208, 5958), (2314, 2986), (2437, 3447), (3447, 8017), (2437, 8017), (3281, 5755),
         (2634, 5035), (1155, 1902), (1157, 1905), (3279, 5480), (3770, 4334)]
BY_HAND = {('rfc1155.ApplicationSyntax', 'rfc1902.ApplicationSyntax')}


def classes(n):
    text = open(os.path.join(GEN, 'Rfc%d.lean' % n)).read()
    block = text[text.index('def classes :'):]
    return dict(re.findall(r'\("rfc\d+\.([^"]+)", ([\w.«»]+)\)', block.split('\n\n')[0]))


def main():
    wits = {}
    for line in open(sys.argv[1]):
        old, new, *octets = line.split()
        wits[old, new] = octets
    imports, good, bad, hand = [], [], [], []
    for m, n in PAIRS:
        old, new = classes(m), classes(n)
        imports += [m, n]
        for c in old:
            if c in new:
                a, b = 'rfc%d.%s' % (m, c), 'rfc%d.%s' % (n, c)
                row = '⟨"%s", %s, "%s", %s⟩' % (a, old[c], b, new[c])
                if (a, b) in BY_HAND:
                    hand.append(row)
                elif (a, b) in wits:
                    bad.append('(%s, [%s])' % (row, ', '.join(wits[a, b])))
                else:
                    good.append(row)
    out = ['import Verif.Gen.Rfc%d' % m for m in sorted(set(imports))]
    out += ['', '/-!', '# Classes of superseded modules and their successors', '',
            'Generated by tools/compat.py: the classes with the same name in both modules of',
            ', '.join('%d/%d' % p for p in PAIRS) + '.', '-/', '',
            'namespace Verif', 'namespace Successors', '',
            '/-- A class of an older module, and the class of the same name of a newer one. -/',
            'structure Row where', '  oldName : String', '  old : Py.Obj', '  newName : String', '  new : Py.Obj', '',
            '/-- The newer class reads all that the older one reads. -/',
            'def compatible : List Row :=', '  [' + ',\n   '.join(good) + ']', '',
            '/-- The newer class does not read all that the older one reads; octets only the older one reads. -/',
            'def broken : List (Row × List UInt8) :=', '  [' + ',\n   '.join(bad) + ']', '',
            '/-- Compatible, but not component by component. -/',
            'def nested : List Row :=', '  [' + ',\n   '.join(hand) + ']', '',
            'end Successors', 'end Verif', '']
    open(os.path.join(GEN, 'Successors.lean'), 'w').write('\n'.join(out))


main()
