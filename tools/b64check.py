"""Compare the model of the environment of pem.py (Verif/Pem/Model.lean: b64decode, strip, encodeUtf8, readline)
with this interpreter.  Not a proof: a check that the trusted model of CPython is right.

usage: python3 b64check.py > /tmp/b64check.lean; (cd ../lean; lake env lean /tmp/b64check.lean)
prints four empty lists if all agree."""
import base64, binascii, io, random

random.seed(7)
alph = "ABab09+/AQ=== \n-_"
def b64():
    for _ in range(3000):
        s = bytes(ord(random.choice(alph)) for _ in range(random.randrange(14)))
        if random.random() < .3:
            s = base64.b64encode(bytes(random.randrange(256) for _ in range(random.randrange(8)))) + s
        try:
            r = 'some ' + str(list(base64.b64decode(s)))
        except binascii.Error:
            r = 'none'
        yield '(%s, %s)' % (list(s), r)
spaces = [c for c in range(0x3100) if chr(c).isspace()]
def chars(n):
    return [random.choice(spaces + [10, 13, 65, 66, 0x200b, 0xfeff, 0x1f600, 0xe9]) for _ in range(random.randrange(n))]
def txt(s):
    return '[%s]' % ', '.join('Char.ofNat %d' % ord(c) for c in s)
def strips():
    for _ in range(400):
        s = ''.join(map(chr, chars(6)))
        yield '(%s, %s)' % (txt(s), txt(s.strip()))
def utf8():
    for _ in range(300):
        s = ''.join(chr(random.choice([random.randrange(0xd800), random.randrange(0xe000, 0x110000)])) for _ in range(4))
        yield '(%s, %s)' % (txt(s), list(s.encode()))
def lines():
    for _ in range(300):
        s = ''.join(random.choice('ab\n\r') for _ in range(random.randrange(8)))
        f = io.StringIO(s, newline='\n')   # no newline translation: the model starts after it
        l = f.readline()
        yield '(%s, %s, %s)' % (txt(s), txt(l), txt(f.read()))
print('import Verif.Pem.Model\nopen Verif.Pem\nset_option maxRecDepth 100000')
def table(name, ty, rows, expr):
    rows = list(rows)
    k = 0
    while rows:
        print('def %s%d : List (%s) := [\n %s]' % (name, k, ty, ',\n '.join(rows[:50])))
        rows = rows[50:]
        k += 1
    print('#eval (%s).filter %s' % (' ++ '.join('%s%d' % (name, i) for i in range(k)), expr))
table('b', 'List UInt8 × Option (List UInt8)', b64(), '(fun x => b64decode x.1 != x.2)')
table('s', 'List Char × List Char', strips(), '(fun x => strip x.1 != x.2)')
table('u', 'List Char × List UInt8', utf8(), '(fun x => encodeUtf8 x.1 != x.2)')
table('r', 'List Char × List Char × List Char', lines(), '(fun x => readline x.1 != (x.2.1, x.2.2))')
