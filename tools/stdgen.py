"""Turn the ASN.1 modules in tools/std into Lean (lean/Verif/Std/*.lean).

Each `X ::= Type` becomes `def X : Ty`, written with the notation of Verif/Spec/X680.lean; each value
assignment of type INTEGER or OBJECT IDENTIFIER becomes an entry of `values`.  The tables pair the types
with the classes of the same name of the package (lean/Verif/Gen), and list what is left over.

usage: stdgen.py [name ...]
"""
import os
import re
import sys

HERE = os.path.dirname(os.path.abspath(__file__))
STD = os.path.join(HERE, 'std')
GEN = os.path.join(HERE, '..', 'lean', 'Verif', 'Gen')
OUT = os.path.join(HERE, '..', 'lean', 'Verif', 'Std')

TOKEN = re.compile(r'--.*?(?=\n|--|$)(?:--)?|::=|\.\.\.|\.\.|[A-Za-z][A-Za-z0-9]*(?:[-_][A-Za-z0-9]+)*|-?\d+|"[^"]*"|\'[^\']*\'[HB]|[{}()\[\],;|@.:&]')
SIMPLE = {'BOOLEAN', 'INTEGER', 'NULL', 'ENUMERATED', 'UTF8String', 'NumericString', 'PrintableString', 'TeletexString',
          'T61String', 'VideotexString', 'IA5String', 'UTCTime', 'GeneralizedTime', 'GraphicString', 'VisibleString',
          'GeneralString', 'UniversalString', 'BMPString', 'ANY'}

# Types whose values are written as object identifiers in value assignments.
OIDS = {'AttributeType', 'ContentType', 'KeyPurposeId', 'AccessMethod'}


def lean(n):
    n = n.replace('-', '_')
    return n


def paren(n):
    return '(%d)' % n if n < 0 else '%d' % n


class P:
    def __init__(self, text):
        body = re.sub(r'--[^\n]*', '', text)
        self.t = [m.group(0) for m in TOKEN.finditer(body)]
        self.i = 0
        self.types = {}     # name -> (ast, source)
        self.values = {}    # name -> ('int', n) | ('oid', parts)
        self.imports = {}   # name -> module
        self.expl = True

    def peek(self, k=0):
        return self.t[self.i + k] if self.i + k < len(self.t) else None

    def next(self):
        self.i += 1
        return self.t[self.i - 1]

    def eat(self, s):
        if self.peek() == s:
            self.i += 1
            return True
        return False

    def need(self, s):
        if not self.eat(s):
            raise SyntaxError('expected %s at %s' % (s, ' '.join(self.t[max(0, self.i - 8):self.i + 5])))

    def module(self):
        while self.peek():
            self.name = self.next()
            self.need('DEFINITIONS')
            w = self.next()
            self.expl = w == 'EXPLICIT'
            self.need('TAGS')
            self.need('::=')
            self.need('BEGIN')
            if self.eat('IMPORTS'):
                ns = []
                while True:
                    n = self.next()
                    if n == 'FROM':
                        m = self.next()
                        for x in ns:
                            self.imports[x] = m
                        ns = []
                    elif n == ';':
                        break
                    elif n != ',':
                        ns.append(n)
            while not self.eat('END'):
                self.assignment()

    def assignment(self):
        n = self.next()
        s = self.i - 1
        if n[0].isupper():
            self.need('::=')
            ty = self.type()
            if n in self.types:
                raise SyntaxError('twice ' + n)
            self.types[n] = (ty, ' '.join(self.t[s:self.i]))
            return
        t = self.type()
        self.need('::=')
        if t == ('simple', 'INTEGER'):
            self.values[n] = ('int', self.number())
        elif t == ('simple', 'OBJECT_IDENTIFIER') or t[0] == 'ref' and t[1] in OIDS:
            self.values[n] = ('oid', self.oid())
        else:
            self.values[n] = ('val', t, self.value())

    def number(self):
        v = self.next()
        return int(v) if re.fullmatch(r'-?\d+', v) else v

    def oid(self):
        out = []
        if not self.eat('{'):
            return [self.next()]
        while not self.eat('}'):
            x = self.next()
            if self.eat('('):
                out.append(int(self.next()))
                self.need(')')
            else:
                out.append(int(x) if x.isdigit() else x)
        return out

    def named(self):
        out = []
        if self.eat('{'):
            while True:
                if self.eat('...'):
                    pass
                else:
                    n = self.next()
                    self.need('(')
                    out.append((n, int(self.next())))
                    self.need(')')
                if not self.eat(','):
                    break
            self.need('}')
        return out

    def type(self):
        if self.eat('['):
            cls = 'context'
            if self.peek() in ('APPLICATION', 'UNIVERSAL', 'PRIVATE'):
                cls = self.next().lower()
            num = int(self.next())
            self.need(']')
            expl = self.expl
            if self.eat('IMPLICIT'):
                expl = False
            elif self.eat('EXPLICIT'):
                expl = True
            elif self.peek() in ('PRIMITIVE', 'CONSTRUCTED'):  # tools/std/built only
                expl = self.next().lower()
            return ('tag', cls, num, expl, self.type())
        n = self.next()
        if n in ('SEQUENCE', 'SET'):
            if self.peek() == '{':
                t = (n, self.comps())
                while self.eat('('):
                    t = ('con', self.constraint(), t)
                    self.need(')')
                return t
            c = None
            if self.eat('SIZE'):
                self.need('(')
                c = ('SIZE',) + self.bounds()
                self.need(')')
            elif self.eat('('):
                self.need('SIZE')
                self.need('(')
                c = ('SIZE',) + self.bounds()
                self.need(')')
                self.need(')')
            self.need('OF')
            t = (n + '_OF', self.type())
            return ('con', c, t) if c else t
        if n == 'CHOICE':
            return ('CHOICE', self.comps())
        if n == 'BIT':
            self.need('STRING')
            t = ('simple', 'BIT_STRING')
        elif n == 'OCTET':
            self.need('STRING')
            t = ('simple', 'OCTET_STRING')
        elif n == 'OBJECT':
            self.need('IDENTIFIER')
            t = ('simple', 'OBJECT_IDENTIFIER')
        elif n == 'ANY':
            if self.eat('DEFINED'):
                self.need('BY')
                self.next()
            t = ('simple', 'ANY')
        elif n in SIMPLE:
            t = ('simple', n)
        elif self.peek() == '.' and n.startswith('rfc'):
            self.next()
            t = ('ref', self.next(), n)
        else:
            t = ('ref', n)
        ns = self.named() if self.peek() == '{' and n in ('BIT', 'INTEGER', 'ENUMERATED') else []
        if ns:
            t = ('named', ns, t)
        while self.peek() == '(':
            self.next()
            t = ('con', self.constraint(), t)
            self.need(')')
        return t

    def constraint(self):
        c = self.element()
        while self.eat('|'):
            d = self.element()
            c = ('VALUES', c[1] + d[1]) if c[0] == d[0] == 'VALUES' else ('EITHER', c, d)
        return c

    def element(self):
        if self.eat('('):
            c = self.constraint()
            self.need(')')
            return ('PAREN', c)
        if self.eat('SIZE'):
            self.need('(')
            b = self.bounds()
            self.need(')')
            return ('SIZE',) + b
        if self.eat('FROM'):
            self.need('(')
            kind = 'FROM'
            if self.eat('ALL'):
                self.need('EXCEPT')
                kind = 'FROM_EXCEPT'
            elif self.eat('PRINTABLE'):  # tools/std/built only
                self.need('EXCEPT')
                kind = 'FROM_PRINTABLE_EXCEPT'
            x = self.next()
            self.need(')')
            return (kind, x)
        if self.eat('WITH'):
            self.need('COMPONENTS')
            self.need('{')
            out = []
            while not self.eat('}'):
                if not self.eat('...'):
                    out.append((self.next(), self.next() == 'PRESENT'))
                self.eat(',')
            return ('WITH', out)
        if self.peek()[0] == '"':
            return ('VALUES', [self.next()])
        v = self.number()
        if self.eat('..'):
            return ('RANGE', v, self.number())
        return ('VALUES', [v])

    def bounds(self):
        a = self.number()
        b = self.number() if self.eat('..') else a
        return (a, b)

    def comps(self):
        self.need('{')
        out = []
        while True:
            if self.eat('}'):
                break
            if self.eat('...'):
                self.eat(',')
                continue
            if self.eat('COMPONENTS'):
                self.need('OF')
                out.append((None, self.type(), None))
                if not self.eat(','):
                    self.need('}')
                    break
                continue
            n = '' if self.peek()[0].isupper() else self.next()
            t = self.type()
            mode = ('req',)
            if self.eat('OPTIONAL'):
                mode = ('opt',)
            elif self.eat('DEFAULT'):
                mode = ('dflt', self.value())
            out.append((n, t, mode))
            if not self.eat(','):
                self.need('}')
                break
        return out

    def value(self):
        """the tokens of a value"""
        s, d = self.i, 0
        while True:
            x = self.next()
            d += (x == '{') - (x == '}')
            if d == 0 and x != ':' and self.peek() != ':' and not (x in ('OCTET', 'BIT') and self.peek() == 'STRING') and \
                    not (x == 'OBJECT' and self.peek() == 'IDENTIFIER'):
                return self.t[s:self.i]


def split(ts):
    """the parts of {a, b, c}"""
    out, cur, d = [], [], 0
    for x in ts[1:-1]:
        d += (x == '{') - (x == '}')
        if x == ',' and d == 0:
            out.append(cur)
            cur = []
        else:
            cur.append(x)
    return out + [cur] if cur else out


class Emit:
    def __init__(self, key, p, others):
        self.key, self.p, self.others = key, p, others
        self.relative = False
        self.classes, self.objects = package(key)
        self.have = dict(self.classes or [])

    def cls(self, n):
        """the package's object for type n, if any"""
        for k in (lean(n), n.replace('-', '')):
            if k in self.have:
                return 'Verif.' + self.have[k]
        return None

    def find(self, n, m=None):
        """(parser, ast) a type reference stands for"""
        if m:
            return self.others[m].find(n)
        if n in self.p.types:
            return self, self.p.types[n][0]
        m = self.p.imports[n]
        return self.others[m].find(n)

    def ref(self, n, m=None):
        if self.relative:
            e = self.others[m] if m else self if n in self.p.types else self.others.get(self.p.imports.get(n))
            c = e and e.cls(n)
            if c:
                return c + '.call.ty'
        if m:
            return 'Std.%s.%s' % (m.capitalize(), lean(n))
        if n in self.p.types:
            return lean(n)
        if n not in self.p.imports:
            raise KeyError('%s: no %s' % (self.key, n))
        if self.p.imports[n] == 'package':
            return 'Verif.%s.%s.call.ty' % (self.key.capitalize(), lean(n))
        return 'Std.%s.%s' % (self.p.imports[n].capitalize(), lean(n))

    def num(self, x):
        if isinstance(x, int):
            return x
        if x in self.p.values:
            k, v = self.p.values[x]
            return self.num(v)
        if x in self.p.imports:
            return self.others[self.p.imports[x]].num(x)
        raise KeyError(x)

    def arcs(self, parts):
        out = []
        for x in parts:
            if isinstance(x, int):
                out.append(x)
            else:
                e = self
                while x not in e.p.values:
                    e = e.others[e.p.imports[x]]
                out += e.arcs(e.p.values[x][1])
        return out

    def names(self, t):
        if t[0] == 'named':
            return dict(t[1])
        if t[0] in ('con', 'tag'):
            return self.names(t[-1])
        if t[0] == 'ref':
            e, u = self.find(*t[1:])
            return e.names(u)
        return {}

    def bits(self, t, names):
        ns = self.names(t)
        ks = [ns[x] for x in names]
        return '[%s]' % ', '.join('true' if i in ks else 'false' for i in range(max(ks) + 1)) if ks else '[]'

    def base(self, t):
        if t[0] == 'ref':
            e, u = self.find(*t[1:])
            return e.base(u)
        if t[0] in ('con', 'tag', 'named'):
            return self.base(t[-1])
        return t

    def val(self, t, v):
        """the Lean term of the value with tokens v of type t"""
        b = self.base(t)
        if b[0] == 'simple' and b[1] == 'ANY':
            i = v.index(':')
            q = P('')
            q.t = v[:i]
            u = q.type()
            return '(holding %s %s)' % (self.there(u), self.val(u, v[i + 1:]))
        if b[0] == 'CHOICE':
            ns = [n for n, _, _ in b[1]]
            i = ns.index(v[0])
            e = self.owner(t)
            return '(.alt %d %s)' % (i, e.val(b[1][i][1], v[2:]))
        if v[0] == '{':
            if b == ('simple', 'BIT_STRING'):
                return '(.bits %s)' % self.bits(t, [x for x in v[1:-1] if x != ','])
            if b == ('simple', 'OBJECT_IDENTIFIER'):
                q = P('')
                q.t = v
                return '(.oid %s)' % self.arcs(q.oid())
            if b[0] in ('SEQUENCE_OF', 'SET_OF'):
                vs = [self.val(b[1], x) for x in split(v)]
                return '(.list (.ofList [%s]))' % ', '.join(vs) if vs else '(.list .nil)'
            if b[0] in ('SEQUENCE', 'SET'):
                given = {x[0]: x[1:] for x in split(v)}
                e = self.owner(t)
                out = []
                for n, u, m in e.flat(b[1]):
                    if n in given:
                        out.append((self if e is self else Both(self, e)).val(u, given.pop(n)))
                    elif m[0] == 'dflt':
                        out.append(e.val(u, m[1]))
                    elif m[0] == 'opt':
                        out.append('.absent')
                    else:
                        raise ValueError('no %s in %r' % (n, v))
                if given:
                    raise ValueError('extra %r' % given)
                return '(.record (.ofList [%s]))' % ', '.join(out)
            raise ValueError('value %r for %r' % (v, b))
        if len(v) != 1:
            raise ValueError('value %r' % v)
        v = v[0]
        if v == 'NULL':
            return '.null'
        if v in ('TRUE', 'FALSE'):
            return '(.int %d)' % (v == 'TRUE')
        if re.fullmatch(r'-?\d+', v):
            return '(.int %s)' % v
        if v.endswith("'H") and b == ('simple', 'OCTET_STRING'):
            h = v[1:-2].replace(' ', '')
            return '(.octets [%s])' % ', '.join(str(int(h[i:i + 2], 16)) for i in range(0, len(h), 2))
        if b == ('simple', 'OBJECT_IDENTIFIER'):
            return '(.oid %s)' % self.arcs([v])
        if v.startswith('"'):
            return '(.str %s.toList)' % v
        ns = self.names(t)
        if v in ns:
            return '(.int %d)' % ns[v]
        e = self
        while v not in e.p.values:
            e = e.others[e.p.imports[v]]
        k = e.p.values[v]
        if k[0] == 'int':
            return '(.int %d)' % e.num(v)
        if k[0] == 'val':
            return e.val(k[1], k[2])
        raise ValueError('value ' + v)

    def owner(self, t):
        """where the outermost SEQUENCE of t is written"""
        if t[0] == 'ref':
            e, u = self.find(*t[1:])
            return e.owner(u)
        if t[0] in ('con', 'tag', 'named'):
            return self.owner(t[-1])
        return self

    def bound(self, f, a, b):
        if b == 'MAX':
            return '(%s_MAX %s)' % (f, paren(self.num(a)))
        return '(%s %s %s)' % (f, paren(self.num(a)), paren(self.num(b)))

    def con(self, c, names):
        if c[0].startswith('FROM'):
            return '(%s %s)' % c
        if c[0] == 'WITH':
            return '(WITH_COMPONENTS [%s])' % ', '.join('("%s", %s)' % (n, str(b).lower()) for n, b in c[1])
        if c[0] == 'PAREN':
            return self.con(c[1], names)
        if c[0] == 'EITHER':
            return '(EITHER %s %s)' % (self.con(c[1], names), self.con(c[2], names))
        if c[0] == 'VALUES' and str(c[1][0])[0] == '"':
            return '(VALUES [%s])' % ', '.join('.str %s.toList' % v for v in c[1])
        if c[0] == 'VALUES' and all(self.p.values.get(v, ('', 0))[0] == 'oid' for v in c[1]):
            return '(VALUES [%s])' % ', '.join('.oid %s' % self.arcs([v]) for v in c[1])
        if c[0] == 'VALUES':
            return '(VALUES [%s])' % ', '.join('.int %d' % names.get(v, v) for v in map(lambda v: v if v in names else self.num(v), c[1]))
        return self.bound(c[0], c[1], c[2])

    def flat(self, comps):
        out = []
        for n, u, m in comps:
            if n is None:
                e, v = self.find(*u[1:])
                assert e is self
                out += self.flat(v[1])
            else:
                out.append((n, u, m))
        return out

    def ty(self, t, ind):
        k = t[0]
        if k == 'simple':
            return t[1]
        if k == 'ref':
            return self.ref(*t[1:])
        if k == 'named':
            return '(named [%s] %s)' % (', '.join('("%s", %d)' % x for x in t[1]), self.ty(t[2], ind))
        if k == 'con':
            return '(constrained %s %s)' % (self.con(t[1], self.names(t[2])), self.ty(t[2], ind))
        if k == 'tag':
            return '(%s .%s %d %s)' % ('explicit' if t[3] else 'implicit', t[1], t[2], self.ty(t[4], ind))
        if k.endswith('_OF'):
            return '(%s %s)' % (k, self.ty(t[1], ind))
        out = []
        for n, u, m in self.flat(t[1]):
            x = self.ty(u, ind + 2)
            if m[0] == 'req':
                out.append('mandatory "%s" %s' % (n, x))
            elif m[0] == 'opt':
                out.append('optional "%s" %s' % (n, x))
            else:
                out.append('default "%s" %s %s' % (n, x, self.val(u, m[1])))
        pad = '\n' + ' ' * (ind + 2)
        return '(%s [%s%s])' % (k, pad, (',' + pad).join(out))

    def there(self, t):
        """the type t as seen from another module"""
        if t[0] == 'ref':
            m = t[2] if len(t) == 3 else self.key if t[1] in self.p.types else self.p.imports[t[1]]
            return 'Std.%s.%s' % (m.capitalize(), lean(t[1]))
        return self.ty(t, 2)

    def deps(self, t):
        if t[0] == 'ref':
            return [t[1]] if len(t) == 2 else []
        if t[0] in ('named', 'con', 'tag') or t[0].endswith('_OF'):
            return self.deps(t[-1])
        if t[0] in ('SEQUENCE', 'SET', 'CHOICE'):
            return [d for _, u, _ in t[1] for d in self.deps(u)]
        return []

    def order(self):
        done, out = set(), []

        def go(n, stack):
            if n in done or n not in self.p.types:
                return
            if n in stack:
                raise ValueError('recursive ' + n)
            for d in self.deps(self.p.types[n][0]):
                go(d, stack + [n])
            done.add(n)
            out.append(n)
        for n in self.p.types:
            go(n, [])
        return out


class Both(Emit):
    """values looked up in one module, types in another"""

    def __init__(self, values, types):
        self.__dict__.update(types.__dict__)
        self.vals = values

    def val(self, t, v):
        b = self.base(t)
        if b == ('simple', 'ANY') or b == ('simple', 'OBJECT_IDENTIFIER'):
            return self.vals.val(b, v)
        if len(v) == 1 and v[0] not in self.p.values and v[0] not in self.p.imports and v[0] not in self.names(t) and v[0][0].islower():
            k = self.vals.p.values.get(v[0])
            if k:
                return self.vals.val(('simple', 'X'), v)
        return Emit.val(self, t, v)


def package(key):
    path = os.path.join(GEN, key.capitalize() + '.lean')
    if not os.path.exists(path):
        return None, None
    text = open(path).read()

    def section(name):
        m = re.search(r'def %s : .*?:=\n(.*?)\n\n' % name, text, re.S)
        return re.findall(r'\("%s\.([A-Za-z0-9_.]+)", ([A-Za-z0-9_.]+)\)' % key, m.group(1)) if m else []
    return section('classes'), section('objects') + [(n, x + '.toObj') for n, x in section('protos')]


# How classes relate to the standard, found by stdgrade.py; checked in Lean.
GRADES = {}
# Constants without the value of the standard, found and checked likewise.
WRONG = set()


def load_grades():
    path = os.path.join(STD, 'grades.txt')
    if os.path.exists(path):
        for line in open(path):
            line = line.split()
            if line[1] == 'WRONG':
                WRONG.add(line[0])
                continue
            GRADES[line[0]] = line[1:] if line[1] != 'UNKNOWN' else ['same']


def write(path, text):
    open(path, 'w').write(text)


def es_values(e, m):
    return e.others[m].p.values


def emit(key, e):
    M = key.capitalize()
    imps = sorted({m for m in e.p.imports.values() if m != 'package'})
    classes, objects = package(key)
    o = []
    o.append('import Verif.Spec.Grade')
    if classes is not None:
        o.append('import Verif.Gen.%s' % M)
    for m in imps:
        o.append('import Verif.Std.%s' % m.capitalize())
    o.append('')
    o.append('/-! The ASN.1 of tools/std/%s.asn1 (generated by tools/stdgen.py). -/' % key)
    o.append('')
    o.append('namespace Verif')
    o.append('namespace Std')
    o.append('namespace %s' % M)
    o.append('')
    o.append('open Asn1 Spec.X680')
    o.append('')
    for n in e.order():
        t, src = e.p.types[n]
        body = e.ty(t, 2)
        if body.startswith('(') and body.endswith(')'):
            body = body[1:-1]
        o.append('/-- `%s ::=` -/' % n)
        o.append('def %s : Ty :=\n  %s' % (lean(n), body))
        o.append('')
    rep = {}
    if classes is not None:
        have = {c for c, _ in classes}
        names = {}
        for n in e.p.types:
            k = lean(n)
            if k not in have and n.replace('-', '') in have:
                k = n.replace('-', '')
            names[k] = n
        exprs = {k: lean(n) for k, n in names.items()}
        for n, m in e.p.imports.items():
            if m != 'package' and lean(n) not in exprs and lean(n) in have:
                exprs[lean(n)] = 'Std.%s.%s' % (m.capitalize(), lean(n))
        pairs = [(c, r) for c, r in classes if c in exprs]
        beyond = [c for c, _ in classes if c not in exprs]
        missing = sorted(set(names) - {c for c, _ in classes})

        def entry(c, r):
            g = GRADES.get('%s.%s' % (key, c), ['same'])
            renamed = g[-1] == 'renamed'
            g = g[:-1] if renamed else g
            if g[0] in ('refused', 'changed'):
                k = '(.%s %s)' % (g[0], '[%s]' % ', '.join(g[1:]))
            elif g[0] == 'rewritten':
                k = '(.rewritten (%s))' % ' '.join(g[1:])
            else:
                k = '.' + g[0]
            return '("%s.%s", Verif.%s, %s, %s, %s)' % (key, c, r, exprs[c], k, 'true' if renamed else 'false')
        o.append('/-- Classes of %s.py and the types of the standard they implement. -/' % key)
        o.append('def entries : List Entry :=\n  [%s]' % ',\n   '.join('⟨%s⟩' % entry(c, r)[1:-1] for c, r in pairs))
        o.append('')
        o.append('/-- Classes of %s.py the transcription of the standard has no type for. -/' % key)
        o.append('def beyond : List String :=\n  [%s]' % ',\n   '.join('"%s.%s"' % (key, c) for c in beyond))
        o.append('')
        known = {lean(n): n for n in e.p.values}
        for n, m in e.p.imports.items():
            if m != 'package' and n in es_values(e, m):
                known.setdefault(lean(n), n)
        consts = [(c, r) for c, r in objects if c in known]
        others = [c for c, _ in objects if c not in known]
        nov = sorted(set(known) - {c for c, _ in objects})

        def const(c):
            n = known[c]
            f = e
            while n not in f.p.values:
                f = f.others[f.p.imports[n]]
            k = f.p.values[n]
            if k[0] == 'val':
                return '%s, %s' % (f.there(k[1]), f.val(k[1], k[2]))
            return 'INTEGER, .int %s' % paren(e.num(known[c])) if k[0] == 'int' else 'OBJECT_IDENTIFIER, .oid %s' % e.arcs([n])
        o.append('/-- Constants of %s.py and the values the standard gives them. -/' % key)
        o.append('def constants : List Constant :=\n  [%s]' % ',\n   '.join(
            '⟨"%s.%s", Verif.%s, %s, %s⟩' % (key, c, r, const(c), str('%s.%s' % (key, c) not in WRONG).lower()) for c, r in consts))
        o.append('')
        o.append('/-- Constants of %s.py the transcription of the standard has no value for. -/' % key)
        o.append('def others : List String :=\n  [%s]' % ',\n   '.join('"%s.%s"' % (key, c) for c in others))
        o.append('')
        o.append('def standard : Standard := ⟨Verif.%s.asModule, entries, beyond, constants, others⟩' % M)
        o.append('')
        rep = dict(pairs=len(pairs), beyond=beyond, missing=missing, values=len(consts), others=others, novalue=nov)
    o.append('end %s' % M)
    o.append('end Std')
    o.append('end Verif')
    os.makedirs(OUT, exist_ok=True)
    write(os.path.join(OUT, M + '.lean'), '\n'.join(o) + '\n')
    return rep


def table(keys):
    ms = [k.capitalize() for k in keys]
    o = ['import Verif.Std.%s' % m for m in ms]
    o += ['', '/-! The standards of tools/std (generated by tools/stdgen.py). -/', '', 'namespace Verif', 'namespace Std', '',
          'def standards : List Standard :=', '  [%s]' % ',\n   '.join('%s.standard' % m for m in ms), '', 'end Std', 'end Verif']
    write(os.path.join(OUT, 'Table.lean'), '\n'.join(o) + '\n')
    os.makedirs(os.path.join(OUT, 'Check'), exist_ok=True)
    for m in ms:
        o = ['import Verif.Std.%s' % m, 'import Verif.Asn1.Grade', '', '/-! The grades of the classes of %s.py, checked (generated by tools/stdgen.py). -/' % m.lower(), '',
             'set_option maxRecDepth 100000', '', 'namespace Verif', 'namespace Std', '',
             'theorem %s.checked : %s.standard.ok = true := by decide +kernel' % (m, m), '', 'end Std', 'end Verif']
        write(os.path.join(OUT, 'Check', m + '.lean'), '\n'.join(o) + '\n')
    o = ['import Verif.Std.Table'] + ['import Verif.Std.Check.%s' % m for m in ms]
    o += ['', '/-! The grades of the classes of each module, checked (generated by tools/stdgen.py). -/', '', 'namespace Verif', 'namespace Std', '',
          'theorem checked : ∀ s ∈ standards, s.ok = true := by', '  simp only [standards, List.forall_mem_cons]',
          '  exact ⟨%s, nofun⟩' % ', '.join('%s.checked' % m for m in ms), '', 'end Std', 'end Verif']
    write(os.path.join(OUT, 'Checks.lean'), '\n'.join(o) + '\n')


def load():
    es = {}
    for f in sorted(os.listdir(STD)):
        if f.endswith('.asn1'):
            k = f[:-5]
            p = P(open(os.path.join(STD, f)).read())
            try:
                p.module()
            except (SyntaxError, IndexError) as x:
                sys.exit('%s: %s' % (f, x))
            es[k] = Emit(k, p, es)
    for e in es.values():  # import from where a name is defined
        for n, m in e.p.imports.items():
            while m in es and n not in es[m].p.types and n not in es[m].p.values and n in es[m].p.imports:
                m = es[m].p.imports[n]
            e.p.imports[n] = m
    return es


def main():
    load_grades()
    es = load()
    want = sys.argv[1:] or sorted(es)
    for k in want:
        print(k, emit(k, es[k]))
    table(sorted(es))


if __name__ == '__main__':
    main()
