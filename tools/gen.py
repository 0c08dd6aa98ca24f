#!/usr/bin/env python3
"""Transcribe /repo/pyasn1_modules/rfc*.py (read as text, never executed) into Lean.

One Lean definition per Python statement, in program order.  Names that a
module rebinds or mutates (`X.componentType = ...`, `x['f'] = ...`) are put in
static-single-assignment form: the last version keeps the Python name, version
k of n is called `X__k`.  Any construct outside the handled subset is a hard
error, so nothing is silently dropped.

Usage: gen.py REPO OUTDIR
"""
import ast, glob, os, sys

REPO, OUT = sys.argv[1], sys.argv[2]

KEYWORDS = set('''def end at in if then else match with do let have show from where by
theorem example instance structure class inductive mutual open namespace section variable
import export private public protected partial unsafe macro syntax notation infix prefix
postfix fun return for unless try catch finally true false Type Prop Sort deriving
extends abbrev axiom constant universe set_option attribute local scoped nomatch
suffices calc using hiding renaming mut break continue this include omit meta'''.split())


def lid(n):
    return '«%s»' % n if n in KEYWORDS else n


def lstr(s):
    out = ''
    for c in s:
        if c in '\\"':
            out += '\\' + c
        elif c == '\n':
            out += '\\n'
        elif c == '\t':
            out += '\\t'
        elif c == '\r':
            out += '\\r'
        elif ord(c) < 32:
            out += '\\x%02x' % ord(c)
        else:
            out += c
    return '"' + out + '"'


class Unsupported(Exception):
    pass


def fail(node, why):
    raise Unsupported('line %s: %s: %s' % (getattr(node, 'lineno', '?'), why, ast.unparse(node)[:200]))


# ---------------------------------------------------------------- bindings
class B:
    """What a Python name is bound to."""

    def __init__(self, kind, lean, **kw):
        self.kind, self.lean = kind, lean
        self.__dict__.update(kw)


PYMODS = {'univ', 'char', 'useful', 'constraint', 'namedtype', 'namedval', 'tag', 'opentype'}
BASES = {
    'univ': 'Boolean Integer BitString OctetString Null ObjectIdentifier Enumerated Any Sequence SequenceOf Set SetOf Choice'.split(),
    'char': 'UTF8String NumericString PrintableString TeletexString IA5String VisibleString UniversalString BMPString'.split(),
    'useful': 'UTCTime GeneralizedTime'.split(),
}
# how a base class interprets componentType
SHAPE = {'Sequence': 'named', 'Set': 'named', 'Choice': 'named', 'SequenceOf': 'of', 'SetOf': 'of'}

OID_TEMPLATE = ast.dump(ast.parse('''
def F(*components):
    output = []
    for x in tuple(components):
        if isinstance(x, univ.ObjectIdentifier):
            output.extend(list(x))
        else:
            output.append(int(x))
    return univ.ObjectIdentifier(output)
''').body[0])


class Mod:
    def __init__(self, world, name):
        self.world, self.name = world, name
        self.ns = {}
        self.lean_ns = name.capitalize()
        self.path = os.path.join(REPO, 'pyasn1_modules', name + '.py')
        self.src = open(self.path).read()
        self.lines = self.src.split('\n')
        self.tree = ast.parse(self.src)
        self.imports = []
        self.out = []
        self.effects = []
        self.uses = []      # (expression, class, version) of every instantiation of a package class
        self.builders = []
        self.counts = {}
        self.totals = None
        self.decls = []     # (python name, kind, lean) of statements that bind here
        self.classes = []   # B objects of classes defined here

    # ---- two passes: count versions, then emit
    def run(self):
        updated = set(self.world.updated)
        self._pass()
        self.world.updated = updated
        totals = dict(self.counts)
        self.__init__(self.world, self.name)
        self.totals = totals
        self._pass()

    def _pass(self):
        for s in self.tree.body:
            try:
                self.stmt(s)
            except Unsupported as e:
                raise SystemExit('%s: %s' % (self.path, e))

    def fresh(self, pyname):
        k = self.counts.get(pyname, 0)
        self.counts[pyname] = k + 1
        base = pyname.replace('.', '_')
        if self.totals is None or k == self.totals[pyname] - 1:
            return base
        return '%s__%d' % (base, k)

    def cite(self, s):
        a, b = s.lineno, s.end_lineno
        return '%s.py:%d' % (self.name, a) if a == b else '%s.py:%d-%d' % (self.name, a, b)

    def emit(self, s, leanname, typ, body, note=''):
        self.out.append('/-- %s%s -/\ndef %s : %s :=\n  %s\n' % (self.cite(s), note, lid(leanname), typ, body))

    def q(self, leanname):
        return '%s.%s' % (self.lean_ns, lid(leanname))

    def bind(self, s, pyname, kind, typ, body, **kw):
        ln = self.fresh(pyname)
        self.emit(s, ln, typ, body, kw.pop('note', ''))
        b = B(kind, self.q(ln), **kw)
        self.ns[pyname] = b
        return b

    # ---- name lookup
    def look(self, node):
        if isinstance(node, ast.Name):
            if node.id not in self.ns:
                fail(node, 'unbound name')
            return self.ns[node.id]
        if isinstance(node, ast.Attribute) and isinstance(node.value, ast.Name):
            m = self.ns.get(node.value.id)
            if m is None:
                fail(node, 'unbound module')
            if m.kind == 'pymod':
                if node.attr in BASES.get(m.name, ()):
                    return B('cls', 'Py.%s.%s' % (m.name, node.attr), shape=SHAPE.get(node.attr, 'prim'), owner=None)
                fail(node, 'pyasn1 name')
            if m.kind == 'module':
                tgt = self.world.get(m.name).ns
                if node.attr not in tgt:
                    fail(node, 'name missing in module')
                return tgt[node.attr]
        fail(node, 'lookup')

    # ---- expressions
    def int_lit(self, node):
        if isinstance(node, ast.Constant) and isinstance(node.value, (int, bool)):
            return int(node.value)
        if isinstance(node, ast.UnaryOp) and isinstance(node.op, ast.USub):
            v = self.int_lit(node.operand)
            return None if v is None else -v
        return None

    def bound(self, node):
        v = self.int_lit(node)
        if v is not None:
            return '(.fin %d)' % v if v >= 0 else '(.fin (%d))' % v
        b = self.look(node)
        if b.kind == 'max':
            return b.lean
        if b.kind == 'obj':
            return '%s.bound' % b.lean
        fail(node, 'bound')

    def tagexpr(self, node):
        if not (isinstance(node, ast.Call) and ast.unparse(node.func) == 'tag.Tag' and len(node.args) == 3):
            fail(node, 'tag')
        cls = {'tag.tagClassContext': '.context', 'tag.tagClassApplication': '.application'}[ast.unparse(node.args[0])]
        fmt = {'tag.tagFormatSimple': 'false', 'tag.tagFormatConstructed': 'true'}[ast.unparse(node.args[1])]
        n = self.int_lit(node.args[2])
        if n is None or n < 0:
            fail(node, 'tag number')
        return '(Py.Tag %s %s %d)' % (cls, fmt, n)

    def tagset(self, node):
        # X.tagSet.tagImplicitly(tag.Tag(...))
        if isinstance(node, ast.Call) and isinstance(node.func, ast.Attribute) and node.func.attr in ('tagImplicitly', 'tagExplicitly'):
            base = node.func.value
            if isinstance(base, ast.Attribute) and base.attr == 'tagSet':
                b = self.look(base.value)
                return '%s.tagSet.%s %s' % (b.lean, node.func.attr, self.tagexpr(node.args[0]))
        fail(node, 'tagSet')

    def const_val(self, node):
        """A Python literal used as a constraint value."""
        v = self.int_lit(node)
        if v is not None:
            return '(.int %d)' % v if v >= 0 else '(.int (%d))' % v
        if isinstance(node, ast.Constant) and isinstance(node.value, str):
            return '(Py.str %s)' % lstr(node.value)
        b = self.look(node)
        if b.kind == 'obj':
            return '%s.value' % b.lean
        fail(node, 'constraint value')

    def constraint(self, node):
        if isinstance(node, ast.BinOp) and isinstance(node.op, ast.Add):
            l = node.left
            if isinstance(l, ast.Attribute) and l.attr in ('subtypeSpec', 'sizeSpec'):
                b = self.look(l.value)
                return '(%s.%s.add %s)' % (b.lean, l.attr, self.constraint(node.right))
            fail(node, 'constraint +')
        if isinstance(node, ast.BinOp) and isinstance(node.op, ast.Sub):
            return '(%s.diff %s)' % (self.constraint(node.left), self.constraint(node.right))
        if isinstance(node, ast.Call):
            f = ast.unparse(node.func)
            a = node.args
            if node.keywords:
                fail(node, 'constraint kw')
            if f in ('constraint.ValueSizeConstraint', 'constraint.ValueRangeConstraint') and len(a) == 2:
                return '(Py.%s %s %s)' % (f.split('.')[1], self.bound(a[0]), self.bound(a[1]))
            if f == 'constraint.SingleValueConstraint':
                return '(Py.SingleValueConstraint [%s])' % ', '.join(self.const_val(x) for x in a)
            if f in ('constraint.ConstraintsUnion', 'constraint.ConstraintsIntersection'):
                return '(Py.%s [%s])' % (f.split('.')[1], ', '.join(self.constraint(x) for x in a))
            if f == 'constraint.PermittedAlphabetConstraint':
                if len(a) == 1 and isinstance(a[0], ast.Starred) and ast.unparse(a[0].value) == 'string.printable' and self.ns['string'].kind == 'stringmod':
                    return '(Py.PermittedAlphabetConstraint Py.string.printable)'
                cs = []
                for x in a:
                    if not (isinstance(x, ast.Constant) and isinstance(x.value, str) and len(x.value) == 1):
                        fail(node, 'alphabet')
                    cs.append(x.value)
                return '(Py.PermittedAlphabetConstraint (Py.chars %s))' % lstr(''.join(cs))
            if f == 'constraint.WithComponentsConstraint':
                ps = []
                for x in a:
                    nm, c = x.elts
                    cf = ast.unparse(c)
                    ps.append('(%s, %s)' % (lstr(nm.value), {'constraint.ComponentPresentConstraint()': 'true', 'constraint.ComponentAbsentConstraint()': 'false'}[cf]))
                return '(Py.WithComponentsConstraint [%s])' % ', '.join(ps)
        fail(node, 'constraint')

    def namedvalues(self, node):
        if not (isinstance(node, ast.Call) and ast.unparse(node.func) == 'namedval.NamedValues' and not node.keywords):
            fail(node, 'namedvalues')
        items = []
        for e in node.args:
            if not (isinstance(e, ast.Tuple) and len(e.elts) == 2):
                fail(e, 'namedvalue')
            k, v = e.elts
            n = self.int_lit(v)
            if n is None or not isinstance(k.value, str):
                fail(e, 'namedvalue')
            items.append('(%s, %s)' % (lstr(k.value), n if n >= 0 else '(%d)' % n))
        return '(Py.NamedValues [%s])' % ', '.join(items)

    def namedtypes(self, node):
        if not (isinstance(node, ast.Call) and ast.unparse(node.func) == 'namedtype.NamedTypes' and not node.keywords):
            fail(node, 'namedtypes')
        items = []
        for e in node.args:
            f = ast.unparse(e.func)
            kinds = {'namedtype.NamedType': 'NamedType', 'namedtype.OptionalNamedType': 'OptionalNamedType', 'namedtype.DefaultedNamedType': 'DefaultedNamedType'}
            if f not in kinds or len(e.args) != 2 or not isinstance(e.args[0].value, str):
                fail(e, 'namedtype')
            ot = ''
            for k in e.keywords:
                if k.arg != 'openType':
                    fail(e, 'namedtype kw')
                c = k.value
                if ast.unparse(c.func) != 'opentype.OpenType' or len(c.args) != 2 or c.keywords:
                    fail(c, 'opentype')
                mp = self.look(c.args[1])
                if mp.kind != 'map':
                    fail(c, 'opentype map')
                ot = ' (openType := some (Py.OpenType %s %s))' % (lstr(c.args[0].value), self.world.mapref(mp.mapid))
            items.append('Py.%s %s %s%s' % (kinds[f], lstr(e.args[0].value), self.obj(e.args[1]), ot))
        return '(Py.NamedTypes [\n    %s])' % (',\n    '.join(items))

    def is_obj_component(self, node):
        return not (isinstance(node, ast.Call) and ast.unparse(node.func) == 'namedtype.NamedTypes')

    def attr_app(self, expr, attr, node):
        """expr with attribute `attr` set to the value of `node` (class attribute or keyword)."""
        if attr == 'componentType':
            if self.is_obj_component(node):
                return '(%s.setComponentTypeOf %s)' % (expr, self.obj(node))
            return '(%s.setComponentType %s)' % (expr, self.namedtypes(node))
        if attr == 'subtypeSpec':
            return '(%s.setSubtypeSpec %s)' % (expr, self.constraint(node))
        if attr == 'sizeSpec':
            return '(%s.setSizeSpec %s)' % (expr, self.constraint(node))
        if attr == 'tagSet':
            return '(%s.setTagSet (%s))' % (expr, self.tagset(node))
        if attr == 'namedValues' and any(isinstance(e.elts[1], ast.Constant) and isinstance(e.elts[1].value, str) for e in node.args):
            # named *strings* on a string type: pyasn1 string types never read namedValues
            return '(%s.unusedNamedValues [%s])' % (expr, ', '.join('(%s, %s)' % (lstr(e.elts[0].value), lstr(e.elts[1].value)) for e in node.args))
        if attr == 'namedValues':
            return '(%s.setNamedValues %s)' % (expr, self.namedvalues(node))
        if attr == 'defaultValue':
            return '(%s.setDefaultValue %d)' % (expr, self.int_lit(node))
        fail(node, 'attribute ' + attr)

    def oid_component(self, node):
        v = self.int_lit(node)
        if v is not None:
            return '.num %d' % v
        return '.oid %s' % self.obj(node)

    def with_value(self, expr, node):
        """expr(value): positional or `value=` initialiser."""
        v = self.int_lit(node)
        if v is not None:
            return '(%s.callInt %s)' % (expr, v if v >= 0 else '(%d)' % v)
        if isinstance(node, ast.Constant) and isinstance(node.value, str):
            return '(%s.callStr %s)' % (expr, lstr(node.value))
        if isinstance(node, ast.Tuple):
            vs = [self.int_lit(x) for x in node.elts]
            if any(x is None or x < 0 for x in vs):
                fail(node, 'oid tuple')
            return '(%s.callArcs [%s])' % (expr, ', '.join(map(str, vs)))
        return '(%s.callObj %s)' % (expr, self.obj(node))

    def obj(self, node):
        """A pyasn1 object expression, as a Lean term of type Py.Obj (parenthesised or atomic)."""
        if isinstance(node, (ast.Name,)) or (isinstance(node, ast.Attribute) and isinstance(node.value, ast.Name)):
            b = self.look(node)
            if b.kind == 'obj':
                return b.lean
            if b.kind == 'proto':
                b.captured = True
                return '%s.toObj' % b.lean
            fail(node, 'not an object: ' + b.kind)
        if isinstance(node, ast.BinOp) and isinstance(node.op, ast.Add) and isinstance(node.right, ast.Tuple):
            vs = [self.int_lit(x) for x in node.right.elts]
            if any(x is None or x < 0 for x in vs):
                fail(node, 'oid +')
            return '(%s.addArcs [%s])' % (self.obj(node.left), ', '.join(map(str, vs)))
        if isinstance(node, ast.Call):
            f = node.func
            # method calls
            if isinstance(f, ast.Attribute) and f.attr in ('subtype', 'clone') and not self.is_mod_attr(f):
                base = self.obj(f.value)
                if node.args:
                    fail(node, 'positional subtype arg')
                e = base
                kws = {k.arg: k.value for k in node.keywords}
                if f.attr == 'clone':
                    if set(kws) != {'namedValues'}:
                        fail(node, 'clone')
                    return '(%s.setNamedValues %s)' % (base, self.namedvalues(kws['namedValues']))
                keep = kws.pop('cloneValueFlag', None)
                if keep is not None and not (isinstance(keep, ast.Constant) and keep.value is True):
                    fail(node, 'cloneValueFlag')
                # pyasn1 order: tags first, then additive keywords, value last
                if 'implicitTag' in kws and 'explicitTag' in kws:
                    fail(node, 'two tags')
                if 'implicitTag' in kws:
                    e = '(%s.implicitTag %s)' % (e, self.tagexpr(kws.pop('implicitTag')))
                if 'explicitTag' in kws:
                    e = '(%s.explicitTag %s)' % (e, self.tagexpr(kws.pop('explicitTag')))
                if 'subtypeSpec' in kws:
                    e = '(%s.addSubtypeSpec %s)' % (e, self.constraint(kws.pop('subtypeSpec')))
                if 'sizeSpec' in kws:
                    e = '(%s.addSizeSpec %s)' % (e, self.constraint(kws.pop('sizeSpec')))
                if 'value' in kws:
                    e = self.with_value(e, kws.pop('value'))
                if kws:
                    fail(node, 'subtype kw')
                if keep is not None:
                    e = '(%s.cloneValueFrom %s)' % (e, base)
                return e
            # OID builder
            if isinstance(f, ast.Name) and f.id in self.ns and self.ns[f.id].kind == 'oidfn':
                if node.keywords:
                    fail(node, 'oid kw')
                return '(%s [%s])' % (self.ns[f.id].lean, ', '.join(self.oid_component(a) for a in node.args))
            b = self.look(f)
            if b.kind != 'cls':
                fail(node, 'call of non-class ' + b.kind)
            e = '%s.call' % b.lean
            if getattr(b, 'owner', None) is not None:
                self.uses.append((node, b, b.lean))
            if b.lean == 'Py.univ.ObjectIdentifier' and node.args:
                if len(node.args) != 1 or node.keywords:
                    fail(node, 'oid args')
                a = node.args[0]
                if isinstance(a, ast.Constant) and isinstance(a.value, str):
                    arcs = [int(x) for x in a.value.split('.')]
                    return '(Py.univ.ObjectIdentifier.call.callArcs [%s])' % ', '.join(map(str, arcs))
                return self.with_value('Py.univ.ObjectIdentifier.call', a)
            kws = {k.arg: k.value for k in node.keywords}
            val = kws.pop('value', None)
            if node.args:
                if len(node.args) != 1 or val is not None:
                    fail(node, 'args')
                val = node.args[0]
            for k in ('componentType', 'namedValues', 'sizeSpec'):
                if k in kws:
                    if k == 'sizeSpec':
                        e = '(%s.withSizeSpec %s)' % (e, self.constraint(kws.pop(k)))
                    else:
                        e = self.attr_app(e, k, kws.pop(k))
            if kws:
                fail(node, 'ctor kw')
            if val is not None:
                e = self.with_value(e, val)
            return e
        fail(node, 'object expression')

    def is_mod_attr(self, f):
        return isinstance(f.value, ast.Name) and f.value.id in self.ns and self.ns[f.value.id].kind in ('module', 'pymod')

    # ---- statements
    def stmt(self, s):
        if isinstance(s, ast.Expr) and isinstance(s.value, ast.Constant) and isinstance(s.value.value, str):
            return
        if isinstance(s, ast.Import):
            if [a.name for a in s.names] != ['string']:
                fail(s, 'import')
            self.ns['string'] = B('stringmod', None)
            return
        if isinstance(s, ast.ImportFrom):
            return self.importfrom(s)
        if isinstance(s, ast.FunctionDef):
            return self.funcdef(s)
        if isinstance(s, ast.ClassDef):
            return self.classdef(s)
        if isinstance(s, ast.Assign):
            return self.assign(s)
        if isinstance(s, ast.Expr) and isinstance(s.value, ast.Call) and isinstance(s.value.func, ast.Attribute) and s.value.func.attr == 'update':
            tgt = self.look(s.value.func.value)
            src = self.look(s.value.args[0])
            if tgt.kind != 'map' or src.kind != 'map' or len(s.value.args) != 1 or s.value.keywords:
                fail(s, 'update')
            if src.mapid in self.world.updated:
                fail(s, 'source of update was updated itself')
            self.world.updated.add(tgt.mapid)
            self.effects.append((s, 'update', tgt.mapid, src.lean))
            return
        fail(s, 'statement')

    def importfrom(self, s):
        if s.module == 'pyasn1.type':
            for a in s.names:
                if a.name not in PYMODS or a.asname:
                    fail(s, 'pyasn1 import')
                self.ns[a.name] = B('pymod', None, name=a.name)
        elif s.module == 'pyasn1.codec.der.encoder':
            if [(a.name, a.asname) for a in s.names] != [('encode', 'der_encode')]:
                fail(s, 'codec import')
            self.ns['der_encode'] = B('derenc', None)
        elif s.module == 'pyasn1_modules':
            for a in s.names:
                if a.asname:
                    fail(s, 'import as')
                self.world.get(a.name)
                self.imports.append((s, a.name, False))
                self.ns[a.name] = B('module', None, name=a.name)
        elif s.module.startswith('pyasn1_modules.'):
            m = s.module.split('.')[1]
            tgt = self.world.get(m)
            self.imports.append((s, m, True))
            for a in s.names:
                if a.name == '*':
                    for k, v in tgt.ns.items():
                        if not k.startswith('_'):
                            self.ns[k] = v
                else:
                    self.ns[a.asname or a.name] = tgt.ns[a.name]
        else:
            fail(s, 'import')

    def funcdef(self, s):
        name = s.name
        t = ast.parse(ast.unparse(s)).body[0]
        t.name = 'F'
        if ast.dump(t) != OID_TEMPLATE:
            fail(s, 'function body is not the OID builder')
        ln = self.fresh(name)
        self.out.append('/-- %s `def %s(*components)` -/\ndef %s (components : List Py.OidArg) : Py.Obj :=\n  match Py.oidLoop [] components with\n  | some output => Py.univ.ObjectIdentifier.call.callArcs output\n  | none => .fail "OID without value"\n' % (self.cite(s), name, lid(ln)))
        self.ns[name] = B('oidfn', self.q(ln))
        self.builders.append((name, self.q(ln)))

    def classdef(self, s, outer=None):
        if len(s.bases) != 1 or s.keywords or s.decorator_list:
            fail(s, 'class')
        base = self.look(s.bases[0])
        if base.kind != 'cls':
            fail(s, 'base')
        e = base.lean
        own = set()
        notes = ''
        saved = dict(self.ns)
        for t in s.body:
            if isinstance(t, ast.Pass) or (isinstance(t, ast.Expr) and isinstance(t.value, ast.Constant)):
                continue
            if isinstance(t, ast.ClassDef):
                b = self.classdef(t, outer=s.name)
                self.ns[t.name] = b
                continue
            if isinstance(t, ast.FunctionDef):
                want = "def __init__(self):\n    SIREntityName.__init__(self)\n    self['sirenType'] = id_dn"
                if ast.unparse(t) != want:
                    fail(t, 'method')
                notes = ' (`__init__` presets field sirenType; not part of the type)'
                continue
            if isinstance(t, ast.Assign) and len(t.targets) == 1 and isinstance(t.targets[0], ast.Name):
                a = t.targets[0].id
                own.add(a)
                e = self.attr_app(e, a, t.value)
                continue
            if isinstance(t, ast.Expr) and isinstance(t.value, ast.Call) and ast.unparse(t.value.func).startswith('constraint.'):
                notes = ' (body evaluates `%s` and discards it)' % ast.unparse(t)
                continue
            fail(t, 'class body')
        self.ns = saved
        pyname = s.name if outer is None else outer + '.' + s.name
        ln = self.fresh(pyname)
        if e.startswith('(') and e.endswith(')'):
            e = e[1:-1]
        self.emit(s, ln, 'Py.Obj', e, ' `class %s(%s)`%s' % (s.name, ast.unparse(s.bases[0]), notes))
        b = B('cls', self.q(ln), shape=base.shape, owner=self, pyname=pyname, base=base, subs=[], own=own)
        self.classes.append(b)
        bb = base
        while getattr(bb, 'owner', None) is not None:
            bb.subs.append(b)
            bb = bb.base
        if outer is None:
            self.ns[s.name] = b
        return b

    def assign(self, s):
        v = s.value
        for t in s.targets:
            if isinstance(t, ast.Name):
                self.assign_name(s, t.id, v)
            elif isinstance(t, ast.Attribute) and isinstance(t.value, ast.Name):
                self.assign_attr(s, t.value.id, t.attr, v)
            elif isinstance(t, ast.Subscript):
                self.assign_item(s, t, v)
            else:
                fail(s, 'assignment target')

    def assign_name(self, s, name, v):
        # dict literal
        if isinstance(v, ast.Dict):
            ents = []
            for k, x in zip(v.keys, v.values):
                ents.append('(%s.value, %s.ty)' % (self.obj(k), self.obj(x)))
            mapid = self.name + '.' + name
            b = self.bind(s, name, 'map', 'Py.Entries', '[%s]' % ((',\n    ').join(ents)), mapid=mapid)
            self.effects.append((s, 'create', mapid, b.lean))
            return
        if isinstance(v, ast.Call) and ast.unparse(v) == "float('inf')":
            self.bind(s, name, 'max', 'Py.Bound', '.inf')
            return
        # alias
        if isinstance(v, ast.Name) or (isinstance(v, ast.Attribute) and isinstance(v.value, ast.Name) and self.ns.get(v.value.id) is not None and self.ns[v.value.id].kind in ('module', 'pymod')):
            b = self.look(v)
            if b.kind in ('cls', 'obj'):
                ln = self.fresh(name)
                self.emit(s, ln, 'Py.Obj', b.lean, ' alias of `%s`' % ast.unparse(v))
                nb = B(b.kind, self.q(ln))
                nb.__dict__.update({k: w for k, w in b.__dict__.items() if k not in ('lean',)})
                if b.kind == 'cls':
                    nb.alias_of = b
                    nb.aliasname = name
                    b.aliased = True
                self.ns[name] = nb
                return
            if b.kind == 'proto':
                b.captured = True
                ln = self.fresh(name)
                self.emit(s, ln, 'Py.Proto', b.lean, ' alias of `%s`' % ast.unparse(v))
                self.ns[name] = B('proto', self.q(ln), captured=True)
                return
            if b.kind == 'map':
                self.ns[name] = b
                self.effects.append((s, 'alias', self.name + '.' + name, self.world.mapref(b.mapid)))
                return
            fail(s, 'alias of ' + b.kind)
        # object with settable fields: X()
        if name in self.world.proto_names(self):
            self.bind(s, name, 'proto', 'Py.Proto', '{ obj := %s }' % self.obj(v), captured=False)
            return
        self.bind(s, name, 'obj', 'Py.Obj', self.obj(v))

    def assign_attr(self, s, name, attr, v):
        b = self.ns.get(name)
        if b is None:
            fail(s, 'attr of unbound')
        if attr == '_componentType':
            # pyasn1 reads `componentType`; `_componentType` is a plain unused attribute
            self.out.append('-- %s `%s`: sets `_componentType`, which pyasn1 never reads; no effect.\n' % (self.cite(s), ast.unparse(s)))
            return
        if b.kind != 'cls' or b.owner is not self or hasattr(b, 'alias_of'):
            fail(s, 'attribute assignment on foreign object')
        if getattr(b, 'aliased', False):
            fail(s, 'class mutated after aliasing')
        live = [x for x in b.subs if attr not in x.own]
        if live:
            fail(s, 'base class mutated after subclassing: %s' % [x.pyname for x in live])
        e = self.attr_app(b.lean, attr, v)
        if e.startswith('(') and e.endswith(')'):
            e = e[1:-1]
        ln = self.fresh(name)
        self.emit(s, ln, 'Py.Obj', e, ' `%s.%s = ...`' % (name, attr))
        b.lean = self.q(ln)
        b.own.add(attr)

    def assign_item(self, s, t, v):
        # x['f'] = e   or   x['f'][0] = e
        elem = False
        base = t.value
        key = t.slice
        if isinstance(base, ast.Subscript):
            if not (isinstance(key, ast.Constant) and key.value == 0):
                fail(s, 'item index')
            elem = True
            key = base.slice
            base = base.value
        if not (isinstance(base, ast.Name) and isinstance(key, ast.Constant) and isinstance(key.value, str)):
            fail(s, 'item assignment')
        b = self.ns[base.id]
        if b.kind != 'proto':
            fail(s, 'item of ' + b.kind)
        if b.captured:
            fail(s, 'prototype mutated after capture')
        iv = self.int_lit(v)
        if iv is not None:
            rhs = '(.int %d)' % iv
        elif isinstance(v, ast.Call) and isinstance(v.func, ast.Name) and v.func.id == 'der_encode' and self.ns['der_encode'].kind == 'derenc':
            rhs = '(.encoded %s)' % self.obj(v.args[0])
        elif elem:
            rhs = '(.elem0 %s)' % self.obj(v)
        else:
            rhs = '(.obj %s)' % self.obj(v)
        ln = self.fresh(base.id)
        self.emit(s, ln, 'Py.Proto', '%s.set %s %s' % (b.lean, lstr(key.value), rhs), ' `%s = ...`' % ast.unparse(t))
        nb = B('proto', self.q(ln), captured=False)
        self.ns[base.id] = nb

    # ---- output
    def text(self):
        imps = []
        for _, m, _ in self.imports:
            if m not in imps:
                imps.append(m)
        o = ['import Verif.Py.Obj\n']
        o += ['import Verif.Gen.%s\n' % m.capitalize() for m in imps]
        o.append('\n/-! Transcription of /repo/pyasn1_modules/%s.py (generated by tools/gen.py). -/\n' % self.name)
        o.append('\nnamespace Verif\nnamespace %s\n\n' % self.lean_ns)
        o.append('\n'.join(self.out))
        # module summary
        o.append('\n/-- Modules of this package imported by %s.py, in textual order. -/\ndef imports : List Py.Ident :=\n  [%s]\n' % (self.name, ', '.join(self.world.modref(m) for _, m, _ in self.imports)))
        if self.imports and self.effects and self.imports[-1][0].lineno > self.effects[0][0].lineno:
            raise SystemExit('import after a dictionary operation in ' + self.name)
        effs = []
        for s, k, mid, x in self.effects:
            effs.append('.%s %s %s /- %s -/' % (k, self.world.mapref(mid), x, self.cite(s)))
        o.append('\n/-- Dictionary operations executed when %s.py is imported, in program order. -/\ndef effects : List Py.Effect :=\n  [%s]\n' % (self.name, ',\n   '.join(effs)))
        cl, ob, pr = [], [], []
        seen = set()
        mine = self.lean_ns + '.'
        for n, b in self.ns.items():
            if b.lean is None or not b.lean.startswith(mine):
                continue
            if b.kind == 'cls':
                cl.append((n, b.lean))
            elif b.kind == 'obj':
                ob.append((n, b.lean))
            elif b.kind == 'proto':
                pr.append((n, b.lean))
        for b in self.classes:
            if '.' in b.pyname:
                cl.append((b.pyname, b.lean))

        def lst(nm, doc, typ, items, chunk=None):
            o.append('\n/-- %s -/\ndef %s : List (String × %s) :=\n  [%s]\n' % (doc, nm, typ, ',\n   '.join('(%s, %s)' % (lstr(self.name + '.' + a), b) for a, b in items)))
        lst('classes', 'ASN.1 types %s.py binds at module level (final version of each name), plus nested classes.' % self.name, 'Py.Obj', cl)
        lst('objects', 'pyasn1 instances %s.py binds at module level.' % self.name, 'Py.Obj', ob)
        lst('protos', 'pyasn1 instances %s.py fills in by item assignment.' % self.name, 'Py.Proto', pr)
        o.append('\n/-- Every place of %s.py that instantiates a class of the package: where, the class as it is\nat that point, and the class as it is when the import has finished. -/\ndef snapshots : List Py.Snapshot :=\n  [%s]\n' % (self.name, ',\n   '.join('⟨%s, %s, %s⟩' % (lstr('%s.py:%d' % (self.name, node.lineno)), lean, b.lean) for node, b, lean in self.uses)))
        lst('builders', 'Functions %s.py defines.' % self.name, '(List Py.OidArg → Py.Obj)', self.builders)
        o.append('\ndef asModule : Py.Module :=\n  { id := %s, imports := imports, effects := effects, classes := classes, objects := objects, protos := protos, snapshots := snapshots, builders := builders }\n' % self.world.modref(self.name))
        o.append('\nend %s\nend Verif\n' % self.lean_ns)
        return ''.join(o)


class World:
    def __init__(self):
        self.mods = {}
        self.loading = []
        self.order = []
        self._protos = {}
        self.maps = {}
        self.updated = set()

    def mapref(self, m):
        return '(Py.map %d %s)' % (self.maps.setdefault(m, len(self.maps)), lstr(m))

    def modref(self, m):
        return '(Py.mod %d %s)' % (self.order.index(m), lstr(m))

    def proto_names(self, m):
        if m.name not in self._protos:
            r = set()
            for s in m.tree.body:
                if isinstance(s, ast.Assign):
                    for t in s.targets:
                        while isinstance(t, ast.Subscript):
                            t = t.value
                            if isinstance(t, ast.Name):
                                r.add(t.id)
            self._protos[m.name] = r
        return self._protos[m.name]

    def get(self, name):
        if name in self.mods:
            return self.mods[name]
        if name in self.loading:
            raise SystemExit('import cycle: %s' % (self.loading + [name]))
        self.loading.append(name)
        m = Mod(self, name)
        m.run()
        self.loading.pop()
        self.mods[name] = m
        self.order.append(name)
        return m


def main():
    w = World()
    names = sorted(os.path.basename(f)[:-3] for f in glob.glob(os.path.join(REPO, 'pyasn1_modules', 'rfc*.py')))
    for n in names:
        w.get(n)
    os.makedirs(OUT, exist_ok=True)
    for n in names:
        p = os.path.join(OUT, n.capitalize() + '.lean')
        t = w.mods[n].text()
        if not (os.path.exists(p) and open(p).read() == t):
            open(p, 'w').write(t)
    # all modules
    o = []
    for n in names:
        o.append('import Verif.Gen.%s\n' % n.capitalize())
    o.append('\n/-! The package: every rfc*.py module of /repo/pyasn1_modules (generated by tools/gen.py). -/\n\nnamespace Verif\nnamespace Package\n')
    o.append('\n/-- Every module of the package. -/\ndef modules : List Py.Module :=\n  [%s]\n' % ',\n   '.join(
        '%s.asModule' % n.capitalize() for n in names))
    o.append('\nend Package\nend Verif\n')
    p = os.path.join(OUT, 'Package.lean')
    t = ''.join(o)
    if not (os.path.exists(p) and open(p).read() == t):
        open(p, 'w').write(t)
    # snapshots are those of the final definitions
    o = ['import Verif.Gen.Package\n', '\n/-! No instantiation of a class is a stale copy (generated by tools/gen.py). -/\n\nnamespace Verif\n']
    o.append('\n/-- Check the entries one by one. -/\nmacro "all_final" : tactic =>\n  `(tactic| repeat (first | exact List.forall_mem_nil _ | refine List.forall_mem_cons.2 ⟨rfl, ?_⟩))\n')
    for n in names:
        o.append('\ntheorem %s.final : ∀ s ∈ %s.snapshots, s.used = s.final := by\n  unfold %s.snapshots; all_final\n' % ((n.capitalize(),) * 3))
    o.append('\nnamespace Package\n\ntheorem final : ∀ m ∈ modules, ∀ s ∈ m.snapshots, s.used = s.final :=\n  %sList.forall_mem_nil _%s\n' % (''.join('List.forall_mem_cons.2 ⟨%s.final,\n  ' % n.capitalize() for n in names), '⟩' * len(names)))
    o.append('\nend Package\nend Verif\n')
    p = os.path.join(OUT, 'Final.lean')
    t = ''.join(o)
    if not (os.path.exists(p) and open(p).read() == t):
        open(p, 'w').write(t)
    print('%d modules, load order ok' % len(names))


main()
