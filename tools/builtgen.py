"""Describe every class of the package in ASN.1 (lean/Verif/Built/*.lean).

The modules in tools/std/built hold the definitions in which the package differs from the standards of
tools/std, and those the standards do not have.  A class is described by the standard's type where that does not
depend on any of these, otherwise by the standard's type rebuilt on top of them.
"""
import os
import re
import sys

import stdgen
from stdgen import P, Emit, lean, package, write

HERE = os.path.dirname(os.path.abspath(__file__))
DIR = os.path.join(HERE, 'std', 'built')
OUT = os.path.join(HERE, '..', 'lean', 'Verif', 'Built')

# Classes whose name cannot be written in ASN.1.
ALIAS = {
    'rfc1157._RequestBase': 'RequestBase',
    'rfc1905._BindValue': 'BindValue',
    'rfc2459.UniversalString': 'Package-UniversalString',
    'rfc2459.BMPString': 'Package-BMPString',
    'rfc2459.UTF8String': 'Package-UTF8String',
    'rfc3280.DirectoryString': 'Later-DirectoryString',
    'rfc4210.PollRepContent.CertReq': 'PollRepContent-CertReq',
    'rfc4210.PollReqContent.CertReq': 'PollReqContent-CertReq',
    'rfc7191.siren_dn': 'Siren-dn',
}


class Built(Emit):
    def __init__(self, key, p, others, patched):
        Emit.__init__(self, key, p, others)
        self.patched = patched
        self.memo = {}

    def where(self, n, m=None):
        """(module, name) a reference leads to"""
        if m and m != self.key:
            return self.others[m].where(n)
        if n in self.p.types:
            return self.key, n
        if n not in self.p.imports:
            raise KeyError('%s: no %s' % (self.key, n))
        return self.others[self.p.imports[n]].where(n)

    def affected(self, n):
        if n not in self.memo:
            self.memo[n] = n in self.patched or any(
                self.others[k].affected(x) for k, x in (self.where(*d) for d in self.refs(self.p.types[n][0])))
        return self.memo[n]

    def refs(self, t):
        if t[0] == 'ref':
            return [t[1:]]
        if t[0] in ('named', 'con', 'tag') or t[0].endswith('_OF'):
            return self.refs(t[-1])
        if t[0] in ('SEQUENCE', 'SET', 'CHOICE'):
            return [d for _, u, _ in t[1] for d in self.refs(u)]
        return []

    def ref(self, n, m=None):
        k, x = self.where(n, m)
        return '%s.%s.%s' % ('Built' if self.others[k].affected(x) else 'Std', k.capitalize(), lean(x))

    def there(self, t):
        return self.ty(t, 2)

    def ty(self, t, ind):
        if t[0] == 'tag' and t[3] not in (True, False):
            return '(%s .%s %d %s)' % (t[3], t[1], t[2], self.ty(t[4], ind))
        return Emit.ty(self, t, ind)

    def standing(self, c):
        """the type describing class c"""
        a = ALIAS.get('%s.%s' % (self.key, c))
        if a:
            return a
        for n in list(self.p.types) + list(self.p.imports):
            if lean(n) in (c, c[0].upper() + c[1:]):
                return n
        for n in self.p.types:
            if n.replace('-', '') == c:
                return n
        return None


def load():
    std = stdgen.load()
    es = {}
    qs = {}
    for f in sorted(os.listdir(DIR)):
        k = f[:-5]
        q = qs[k] = P(open(os.path.join(DIR, f)).read())
        try:
            q.module()
        except (SyntaxError, IndexError) as x:
            sys.exit('built/%s: %s' % (k, x))
        if k not in std:
            es[k] = Built(k, q, es, set(q.types))
    for k, e in std.items():
        patched = []
        if k in qs:
            q = qs[k]
            patched = list(q.types)
            for n in q.imports:
                e.p.types.pop(n, None)
            e.p.imports.update(q.imports)
            e.p.types.update(q.types)
            e.p.values.update(q.values)
        es[k] = Built(k, e.p, es, set(patched))
    for e in es.values():
        for n, m in e.p.imports.items():
            while m in es and n not in es[m].p.types and n not in es[m].p.values and n in es[m].p.imports:
                m = es[m].p.imports[n]
            e.p.imports[n] = m
    return es


def emit(key, e):
    M = key.capitalize()
    classes, _ = package(key)
    if classes is None:
        return None
    grades = stdgen.GRADES
    mine = [n for n in e.order() if e.affected(n)]
    imps = sorted({k for n in mine for k, x in (e.where(*d) for d in e.refs(e.p.types[n][0])) if k != key})
    rows, missing, count = [], [], 0
    std, beyond = os.path.join(stdgen.OUT, M + '.lean'), []
    if os.path.exists(std):
        beyond = re.findall(r'"%s\.([^"]+)"' % key, re.search(r'def beyond : .*?\n\n', open(std).read(), re.S).group(0))
    for c, r in classes:
        n = e.standing(c)
        g = grades.get('%s.%s' % (key, c), ['same'])
        if n is None:
            missing.append(c)
            continue
        k, x = e.where(n)
        if k != key and k not in imps:
            imps.append(k)
        count += c in beyond or g != ['same'] or e.others[k].affected(x)
        rows.append('⟨"%s.%s", Verif.%s, %s⟩' % (key, c, r, e.ref(n)))
    o = ['import Verif.Spec.Built', 'import Verif.%s.%s' % ('Std' if os.path.exists(std) else 'Gen', M)]
    o += ['import Verif.Built.%s' % m.capitalize() for m in sorted(imps) if any(e.others[m].affected(x) for x in e.others[m].p.types)]
    o += ['import Verif.Std.%s' % m.capitalize() for m in sorted(imps)]
    o += ['', '/-! What %s.py implements, where that is not the standard (generated by tools/builtgen.py). -/' % key, '',
          'namespace Verif', 'namespace Built', 'namespace %s' % M, '', 'open Asn1 Verif.Std Spec.X680 Spec.Built', '']
    for n in mine:
        body = e.ty(e.p.types[n][0], 2)
        if body.startswith('(') and body.endswith(')'):
            body = body[1:-1]
        o.append('/-- `%s ::=`%s -/' % (n, ', changed or supplied' if n in e.patched else ''))
        o.append('def %s : Ty :=\n  %s' % (lean(n), body))
        o.append('')
    o.append('def description : Description :=\n  ⟨Verif.%s.asModule,\n   [%s]⟩' % (M, ',\n    '.join(rows)))
    o += ['', 'end %s' % M, 'end Built', 'end Verif']
    os.makedirs(OUT, exist_ok=True)
    write(os.path.join(OUT, M + '.lean'), '\n'.join(o) + '\n')
    return count, missing


PREAMBLE = ['', '/-! %s (generated by tools/builtgen.py). -/', '', 'set_option maxRecDepth 100000', '', 'namespace Verif',
            'namespace Built', '']
END = ['', 'end Built', 'end Verif']


def preamble(title):
    return [x.replace('%s', title) for x in PREAMBLE]


def main():
    stdgen.load_grades()
    es = load()
    tot = 0
    done = []
    for k in es:
        r = emit(k, es[k])
        if r is None:
            continue
        if r[1]:
            sys.exit('%s: no description of %s' % (k, ' '.join(r[1])))
        tot += r[0]
        M = k.capitalize()
        done.append(M)
    order = re.findall(r'(Rfc\d+)\.asModule', open(os.path.join(OUT, '..', 'Gen', 'Package.lean')).read())
    order = list(dict.fromkeys(order))
    assert sorted(order) == sorted(done), set(order) ^ set(done)
    os.makedirs(os.path.join(OUT, 'Check'), exist_ok=True)
    for m in order:
        o = ['import Verif.Built.%s' % m, 'import Verif.Asn1.Built'] + preamble('The descriptions of the classes of %s.py, checked' % m.lower())
        o += ['theorem %s.checked : description.Ok := ⟨rfl, by decide +kernel⟩' % m] + END
        write(os.path.join(OUT, 'Check', m + '.lean'), '\n'.join(o) + '\n')
    o = ['import Verif.Spec.Built'] + ['import Verif.Built.%s' % m for m in order]
    o += preamble('The descriptions of all modules')
    o += ['def descriptions : List Description :=\n  [' + ',\n   '.join(
        '%s.description' % m for m in order) + ']'] + END
    write(os.path.join(OUT, 'Table.lean'), '\n'.join(o) + '\n')
    o = ['import Verif.Built.Table'] + ['import Verif.Built.Check.%s' % m for m in order]
    o += preamble('Every class is described')
    o += ['theorem checked : ∀ d ∈ descriptions, d.Ok := by', '  simp only [descriptions, List.forall_mem_cons]',
          '  exact ⟨%s, nofun⟩' % ', '.join('%s.checked' % m for m in order)] + END
    write(os.path.join(OUT, 'Checks.lean'), '\n'.join(o) + '\n')
    print(tot, 'classes described;', sum(len(e.patched) for e in es.values()), 'definitions changed or supplied')


if __name__ == '__main__':
    main()
