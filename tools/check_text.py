"""Reads the Lean files which gen_source.py has written back and compares them with the Python files:
every function and method, its parameters and defaults, the values of the module level, the table of
curves, and which method each class has under each name. Shares no code with gen_source.py. Nothing
of the package is run; the classes are rebuilt with empty bodies, so that Python itself computes the
order in which methods are looked up.

usage: python3 tools/check_text.py /repo/gostcrypto lean/Verif/Source
"""
import ast
import glob
import os
import re
import sys

REPO, LEAN = sys.argv[1], sys.argv[2]
TOKEN = re.compile(r'"(?:[^"\\]|\\.)*"|-?\d+|[\[\](),]|:=|[^\s\[\](),"]+')


# ---- Lean terms: a term is a string, a number, a list, a pair or (head, arguments)

def tokens(text):
    return TOKEN.findall(re.sub(r'/-.*?-/', ' ', text, flags=re.S))


class Reader:
    def __init__(self, toks):
        self.toks, self.i = toks, 0

    def peek(self):
        return self.toks[self.i] if self.i < len(self.toks) else None

    def take(self):
        self.i += 1
        return self.toks[self.i - 1]

    def atom(self):
        t = self.take()
        if t == '[':
            res = []
            while self.peek() != ']':
                res.append(self.term())
                if self.peek() == ',':
                    self.take()
            self.take()
            return res
        if t == '(':
            res = [self.term()]
            while self.peek() == ',':
                self.take()
                res.append(self.term())
            assert self.take() == ')'
            return res[0] if len(res) == 1 else ('pair', res)
        if t[0] == '"':
            return re.sub(r'\\(.)', r'\1', t[1:-1])
        if re.fullmatch(r'-?\d+', t):
            return int(t)
        return (t, [])

    def term(self):
        head = self.atom()
        if not (isinstance(head, tuple) and head[0] != 'pair' and not head[1]):
            return head
        args = []
        while self.peek() not in (None, ',', ']', ')', 'def', 'end', 'params', 'defaults', 'static', 'body'):
            args.append(self.atom())
        return (head[0], args)


def lean_file(path):
    """name -> (type, term or fields)"""
    toks = tokens(open(path).read())
    res, i = {}, 0
    while i < len(toks):
        if toks[i] != 'def':
            i += 1
            continue
        name, i = toks[i + 1], i + 2
        kind = []
        while toks[i] not in (':=', 'where'):
            kind.append(toks[i])
            i += 1
        if toks[i] == 'where' and 'FunDef' in kind:
            fields, r = {}, Reader(toks)
            r.i = i + 1
            for f in ('params', 'defaults', 'static', 'body'):
                assert r.take() == f and r.take() == ':='
                fields[f] = r.term()
            res[name], i = fields, r.i
        elif toks[i] == ':=':
            r = Reader(toks)
            r.i = i + 1
            res[name], i = r.term(), r.i
        else:
            i += 1
    return res


OPS = {'add': ast.Add, 'sub': ast.Sub, 'mul': ast.Mult, 'floordiv': ast.FloorDiv, 'mod': ast.Mod, 'pow': ast.Pow,
       'band': ast.BitAnd, 'bor': ast.BitOr, 'bxor': ast.BitXor, 'shl': ast.LShift, 'shr': ast.RShift, 'eq': ast.Eq,
       'ne': ast.NotEq, 'lt': ast.Lt, 'le': ast.LtE, 'gt': ast.Gt, 'ge': ast.GtE, 'isIn': ast.In, 'notIn': ast.NotIn}
OPS = {k: v.__name__ for k, v in OPS.items()}


def expr(t):
    """A Lean expression as a nested tuple, the normal form of both sides."""
    h, a = t
    if h == '.none':
        return ('const', None)
    if h == '.bool':
        return ('const', {'true': True, 'false': False}[a[0][0]])
    if h in ('.int', '.str'):
        return ('const', a[0])
    if h == '.bytes':
        return ('const', bytes(a[0]))
    if h in ('.name', '.glob'):
        return (h[1:], a[0])
    if h == '.attr':
        return ('attr', expr(a[0]), a[1])
    if h in ('.bin', '.cmp'):
        return (h[1:], OPS[a[0][0][1:]], expr(a[1]), expr(a[2]))
    if h in ('.and', '.or', '.not', '.neg', '.index'):
        return (h[1:],) + tuple(expr(x) for x in a)
    if h == '.slice':
        return ('slice', expr(a[0])) + tuple(None if x[0] == 'none' else expr(x[1][0]) for x in a[1:])
    if h in ('.tuple', '.list'):
        return (h[1:], [expr(x) for x in a[0]])
    if h == '.comp':
        return ('comp', expr(a[0]), a[1], expr(a[2]))
    if h in ('.builtin', '.call', '.new'):
        return (h[1:], a[0], [expr(x) for x in a[1]])
    assert h == '.meth', h
    return ('meth', expr(a[0]), a[1], [expr(x) for x in a[2]])


def target(t):
    h, a = t
    if h == '.names':
        return ('names', a[0])
    if h == '.attrs':
        return ('attrs', [(expr(p[1][0]), p[1][1]) for p in a[0]])
    return expr(t)


def stmts(l):
    res = []
    for h, a in l:
        if h == '.pass':
            res.append(('pass',))
        elif h == '.assign':
            res.append(('assign', target(a[0]), expr(a[1])))
        elif h in ('.expr', '.ret'):
            res.append((h[1:], expr(a[0])))
        elif h == '.if_':
            res.append(('if', expr(a[0]), stmts(a[1]), stmts(a[2])))
        elif h == '.for_':
            res.append(('for', a[0], expr(a[1]), stmts(a[2])))
        elif h == '.while_':
            res.append(('while', expr(a[0]), stmts(a[1])))
        elif h == '.raise':
            res.append(('raise', a[0], a[1]))
        else:
            assert h == '.tryValueError', h
            res.append(('try', stmts(a[0]), stmts(a[1])))
    return res


# ---- Python files

MODULE = {}                 # path -> name of the Lean file
lean_fun, lean_def = {}, {}
for path in glob.glob(os.path.join(LEAN, 'Text', '*.lean')):
    text = open(path).read()
    src = re.search(r'from\s+/repo/gostcrypto/(\S+\.py)\.', text)
    if src:
        MODULE[src[1]] = os.path.basename(path)[:-5]
    for k, v in lean_file(path).items():
        (lean_fun if isinstance(v, dict) else lean_def)[k] = v
program = lean_file(os.path.join(LEAN, 'Program.lean'))

present = {os.path.relpath(p, REPO) for p in glob.glob(os.path.join(REPO, '*', '*.py')) if not p.endswith('__init__.py')}
assert present == set(MODULE), present ^ set(MODULE)
trees = {m: ast.parse(open(os.path.join(REPO, p)).read()) for p, m in MODULE.items()}
class_nodes, class_mod, top_funs, errors = {}, {}, {}, set()
for m, tree in trees.items():
    for n in tree.body:
        if isinstance(n, ast.ClassDef):
            class_nodes[n.name], class_mod[n.name] = n, m
        if isinstance(n, ast.FunctionDef):
            top_funs.setdefault(n.name, []).append(m)
real = {}


def empty_class(name):
    if name not in real:
        bases = tuple(Exception if ast.unparse(b) == 'Exception' else object if ast.unparse(b) == 'ABC'
                      else empty_class(ast.unparse(b)) for b in class_nodes[name].bases)
        real[name] = type(name, bases, {})
    return real[name]


for c in class_nodes:
    if issubclass(empty_class(c), Exception):
        errors.add(c)


def methods(c):
    return {f.name: f for f in class_nodes[c].body if isinstance(f, ast.FunctionDef)}


def find(order, name):
    for c in order:
        if c.__name__ in class_nodes and name in methods(c.__name__):
            return c.__name__
    return None


def imported(tree, name):
    return any(isinstance(n, ast.ImportFrom) and any(a.name == name and a.asname is None for a in n.names) for n in tree.body)


class Norm:
    """The normal form of a function."""

    def __init__(self, mod, cls, fn, full, inner):
        self.mod, self.cls, self.full, self.inner = mod, cls, full, dict(inner)
        self.locals = {a.arg for a in fn.args.args} | ({fn.args.kwarg.arg} if fn.args.kwarg else set())
        skip = {id(y) for x in ast.walk(fn) if isinstance(x, (ast.ListComp, ast.GeneratorExp)) for g in x.generators
                for y in ast.walk(g.target)}
        self.locals |= {x.id for x in ast.walk(fn) if isinstance(x, ast.Name) and isinstance(x.ctx, ast.Store)
                        and id(x) not in skip}
        self.nested = []

    def positional(self, call, names):
        """The arguments in the order of the parameters."""
        res = [self.e(a) for a in call.args]
        kw = {k.arg: self.e(k.value) for k in call.keywords}
        rest = names[len(res):]
        assert set(kw) == set(rest[:len(kw)]), ast.unparse(call)
        return res + [kw[n] for n in rest[:len(kw)]]

    def plain(self, call):
        assert not call.keywords, ast.unparse(call)
        return [self.e(a) for a in call.args]

    def e(self, n):
        if isinstance(n, ast.Constant):
            return ('const', n.value)
        if isinstance(n, ast.Name):
            return ('name', n.id) if n.id in self.locals else ('glob', self.mod + '.' + n.id)
        if isinstance(n, ast.Attribute):
            return ('attr', self.e(n.value), n.attr)
        if isinstance(n, ast.BinOp):
            return ('bin', type(n.op).__name__, self.e(n.left), self.e(n.right))
        if isinstance(n, ast.BoolOp):
            *init, res = [self.e(v) for v in n.values]
            for v in reversed(init):
                res = (type(n.op).__name__.lower(), v, res)
            return res
        if isinstance(n, ast.UnaryOp):
            if isinstance(n.op, ast.Not):
                return ('not', self.e(n.operand))
            assert isinstance(n.op, ast.USub)
            x = self.e(n.operand)
            return ('const', -x[1]) if x[0] == 'const' else ('neg', x)
        if isinstance(n, ast.Compare):
            (op,), (b,) = n.ops, n.comparators
            return ('cmp', type(op).__name__, self.e(n.left), self.e(b))
        if isinstance(n, ast.Subscript):
            if isinstance(n.slice, ast.Slice):
                assert n.slice.step is None
                return ('slice', self.e(n.value)) + tuple(x and self.e(x) for x in (n.slice.lower, n.slice.upper))
            return ('index', self.e(n.value), self.e(n.slice))
        if isinstance(n, (ast.Tuple, ast.List)):
            return (type(n).__name__.lower(), [self.e(x) for x in n.elts])
        if isinstance(n, (ast.ListComp, ast.GeneratorExp)):
            (g,) = n.generators
            assert not g.ifs and not g.is_async
            it, x = self.e(g.iter), g.target.id
            fresh = x not in self.locals
            self.locals.add(x)
            res = ('comp', self.e(n.elt), x, it)
            if fresh:
                self.locals.discard(x)
            return res
        assert isinstance(n, ast.Call), ast.dump(n)
        f, text = n.func, ast.unparse(n.func)
        if isinstance(f, ast.Name):
            assert text not in self.locals
            if text in self.inner:
                return ('call', self.inner[text], self.plain(n))
            if text == 'isinstance':
                assert ast.unparse(n.args[1]) == '(bytes, bytearray)' and len(n.args) == 2
                return ('builtin', 'isbytes', [self.e(n.args[0])])
            if text == 'pack':
                assert imported(trees[self.mod], 'pack') and ast.unparse(n.args[0]) == "'>I'"
                return ('builtin', 'pack>I', [self.e(a) for a in n.args[1:]])
            if text in class_nodes:
                init = methods(find(real[text].__mro__, '__init__'))['__init__']
                return ('new', text, self.positional(n, [a.arg for a in init.args.args[1:]]))
            if text in top_funs:
                if self.mod in top_funs[text]:
                    m = self.mod
                else:
                    (m,) = top_funs[text]
                    assert imported(trees[self.mod], text)
                return ('call', m + '.' + text, self.plain(n))
            if text == 'deepcopy':
                assert imported(trees[self.mod], 'deepcopy')
            else:
                assert text in dir(__builtins__), text
            return ('builtin', text, self.plain(n))
        if text == 'int.from_bytes':
            return ('builtin', text, self.positional(n, ['bytes', 'byteorder']))
        if text == 'os.urandom':
            return ('builtin', text, self.plain(n))
        owner = None
        if ast.unparse(f.value) == 'super()':
            # for an object of this class itself; no other class is derived from it
            assert not any(real[self.cls] in real[c].__mro__[1:] for c in real)
            owner = find(real[self.cls].__mro__[1:], f.attr)
            return ('call', owner + '.' + f.attr, [('name', 'self')] + self.plain(n))
        if isinstance(f.value, ast.Name) and f.value.id in class_nodes:
            owner = find(real[f.value.id].__mro__, f.attr)
            return ('call', owner + '.' + f.attr, self.plain(n))
        names = ['length', 'byteorder'] if f.attr == 'to_bytes' else []
        return ('meth', self.e(f.value), f.attr, self.positional(n, names) if names else self.plain(n))

    def target(self, t):
        if isinstance(t, ast.Tuple):
            if all(isinstance(x, ast.Name) for x in t.elts):
                return ('names', [x.id for x in t.elts])
            return ('attrs', [(self.e(x.value), x.attr) for x in t.elts])
        return self.e(t)

    def block(self, body):
        res = []
        for st in body:
            if isinstance(st, ast.Expr) and isinstance(st.value, ast.Constant):
                assert isinstance(st.value.value, str)
            elif isinstance(st, ast.Expr):
                res.append(('expr', self.e(st.value)))
            elif isinstance(st, ast.Assign):
                (t,) = st.targets
                res.append(('assign', self.target(t), self.e(st.value)))
            elif isinstance(st, ast.AnnAssign):
                res.append(('assign', self.target(st.target), self.e(st.value)))
            elif isinstance(st, ast.Return):
                res.append(('ret', self.e(st.value)))
            elif isinstance(st, ast.Pass):
                res.append(('pass',))
            elif isinstance(st, ast.If):
                res.append(('if', self.e(st.test), self.block(st.body), self.block(st.orelse)))
            elif isinstance(st, ast.While):
                assert not st.orelse
                res.append(('while', self.e(st.test), self.block(st.body)))
            elif isinstance(st, ast.For):
                assert not st.orelse
                if ast.unparse(st.iter).startswith('self._bits('):
                    res += self.bits(st)
                else:
                    res.append(('for', st.target.id, self.e(st.iter), self.block(st.body)))
            elif isinstance(st, ast.Raise):
                assert st.exc.func.id in errors and len(st.exc.args) == 1 and not st.exc.keywords
                res.append(('raise', st.exc.func.id, st.exc.args[0].value))
            elif isinstance(st, ast.Try):
                (h,) = st.handlers
                assert ast.unparse(h.type) == 'ValueError' and not st.orelse and not st.finalbody
                res.append(('try', self.block(st.body), self.block(h.body)))
            else:
                assert isinstance(st, ast.FunctionDef), ast.dump(st)
                self.inner[st.name] = self.full + '.' + st.name
                self.nested.append(st)
        return res

    def bits(self, st):
        """The generator is known by its text; a loop over it is this loop."""
        gen = methods(self.cls)['_bits']
        assert [ast.unparse(x) for x in gen.body if not (isinstance(x, ast.Expr) and isinstance(x.value, ast.Constant))] == \
            ['while value:\n    yield (value & 1)\n    value = value >> 1'], ast.unparse(gen)
        v = ('name', '_bits.value')
        return [('assign', v, self.e(st.iter.args[0])),
                ('while', v, [('assign', ('name', st.target.id), ('bin', 'BitAnd', v, ('const', 1)))] + self.block(st.body)
                 + [('assign', v, ('bin', 'RShift', v, ('const', 1)))])]


counts = dict(functions=0, values=0, methods=0, curves=0)
bad = []
table = {p[1][0]: p[1][1][0] for p in program['fnTable']}
globs = {p[1][0]: p[1][1][0] for p in program['globalTable']}
assert len(table) == len(program['fnTable']) and len(globs) == len(program['globalTable'])
seen = set()


def function(mod, cls, fn, full, inner):
    if any(isinstance(x, (ast.Yield, ast.YieldFrom)) for x in ast.walk(fn)):
        assert fn.name == '_bits'
        return
    decs = [ast.unparse(d) for d in fn.decorator_list]
    assert all(d in ('staticmethod', 'property', 'abstractmethod') for d in decs), decs
    a = fn.args
    assert not (a.posonlyargs or a.kwonlyargs or a.vararg)
    norm = Norm(mod, cls, fn, full, inner)
    body = norm.block(fn.body)
    outer = Norm(mod, cls, ast.parse('def f(): pass').body[0], full, inner)
    want = dict(params=[x.arg for x in a.args] + ([a.kwarg.arg] if a.kwarg else []),
                defaults=[outer.e(d) for d in a.defaults], static=cls is None or 'staticmethod' in decs, body=body)
    seen.add(full)
    if full not in table:
        bad.append((full, 'is missing'))
        return
    d = lean_fun[table[full]]
    have = dict(params=d['params'], defaults=[expr(x) for x in d['defaults']], static=d['static'][0] == 'true',
                body=stmts(d['body']))
    for k in want:
        if repr(want[k]) != repr(have[k]):
            bad.append((full, k, want[k], have[k]))
    counts['functions'] += 1
    for st in norm.nested:
        function(mod, None, st, full + '.' + st.name, norm.inner)


def lean_value(t):
    h, a = t
    if h in ('.int', '.str'):
        return a[0]
    if h == '.bytes':
        return bytes(a[0])
    if h == '.dict':
        return {p[1][0]: lean_value(p[1][1]) for p in a[0]}
    if h == 'ints':
        return tuple(a[0] if isinstance(a[0], list) else lean_def[a[0][0]])
    assert h == '.tuple', h
    return tuple(lean_value(x) for x in a[0])


def py_value(n, env):
    """Literals, names of other values, arithmetic and bytearray(...) of the module level."""
    if isinstance(n, ast.Constant):
        return n.value
    if isinstance(n, ast.Name):
        return env[n.id]
    if isinstance(n, (ast.Tuple, ast.List)):
        return tuple(py_value(x, env) for x in n.elts)
    if isinstance(n, ast.Dict):
        return {py_value(k, env): py_value(v, env) for k, v in zip(n.keys, n.values)}
    if isinstance(n, ast.BinOp):
        a, b = py_value(n.left, env), py_value(n.right, env)
        return {ast.Add: lambda: a + b, ast.Sub: lambda: a - b, ast.Mult: lambda: a * b, ast.Pow: lambda: a ** b}[type(n.op)]()
    assert isinstance(n, ast.Call) and ast.unparse(n.func) == 'bytearray' and not n.keywords, ast.unparse(n)
    (x,) = n.args
    x = py_value(x, env)
    return bytes(x) if not isinstance(x, int) else bytes(x)


for m, tree in trees.items():
    env = {}
    for n in tree.body:
        if isinstance(n, ast.FunctionDef):
            function(m, None, n, m + '.' + n.name, {})
        elif isinstance(n, ast.ClassDef):
            if n.name in errors:
                assert not methods(n.name)
                continue
            for f in n.body:
                if isinstance(f, ast.FunctionDef):
                    function(m, n.name, f, n.name + '.' + f.name, {})
                else:
                    assert isinstance(f, ast.Expr) and isinstance(f.value, ast.Constant), ast.unparse(f)
        elif isinstance(n, (ast.Assign, ast.AnnAssign)):
            t = (n.targets[0] if isinstance(n, ast.Assign) else n.target).id
            if t in ('CipherType', 'CipherObjType'):
                continue                                                    # types of annotations
            if t == 'CURVES_R_1323565_1_024_2019':
                norm = Norm(m, None, ast.parse('def f(): pass').body[0], '', {})
                rows = lean_def['Signature.curves']
                assert len(rows) == len(n.value.keys)
                for k, v, (_, (name, (d, _))) in zip(n.value.keys, n.value.values, rows):
                    assert ast.unparse(v.func) == 'dict' and not v.args
                    want = [(x.arg, norm.e(x.value)) for x in v.keywords]
                    have = [(p[1][0], expr(p[1][1])) for p in lean_def[d]]
                    if name != k.value or want != have:
                        bad.append(('curve', k.value, want, have))
                    counts['curves'] += 1
                continue
            env[t] = py_value(n.value, env)
            seen.add(m + '.' + t)
            have = lean_value(lean_def[globs[m + '.' + t]]) if m + '.' + t in globs else None
            if repr(have) != repr(env[t]):
                bad.append(('value', m + '.' + t, env[t], have))
            counts['values'] += 1
        else:
            assert isinstance(n, (ast.Import, ast.ImportFrom, ast.Expr)) and not (
                isinstance(n, ast.Expr) and not isinstance(n.value, ast.Constant)), ast.unparse(n)

for x in (set(table) | set(globs)) - seen:
    bad.append((x, 'is not in the Python files'))

want_m, want_p = {}, {}
for c in class_nodes:
    if c in errors:
        continue
    for name in {f for k in real[c].__mro__ if k.__name__ in class_nodes for f in methods(k.__name__)}:
        owner = find(real[c].__mro__, name)
        f = methods(owner)[name]
        decs = [ast.unparse(d) for d in f.decorator_list]
        if name == '_bits':
            continue
        if 'property' in decs:
            want_p[c, name] = owner + '.' + name
        else:
            want_m[c, name] = (owner + '.' + name, 'staticmethod' in decs)
have_m = {(p[1][0], q[1][0]): (q[1][1][1][0], q[1][1][1][1][0] == 'true') for p in program['methodTable'] for q in p[1][1]}
have_p = {(p[1][0], q[1][0]): q[1][1] for p in program['propertyTable'] for q in p[1][1]}
counts['methods'] = len(want_m) + len(want_p)
for k in set(want_m) | set(have_m):
    if want_m.get(k) != have_m.get(k):
        bad.append(('method', k, want_m.get(k), have_m.get(k)))
for k in set(want_p) | set(have_p):
    if want_p.get(k) != have_p.get(k):
        bad.append(('property', k, want_p.get(k), have_p.get(k)))

for b in bad:
    print('DIFFERENT', *b)
print(counts, 'all equal' if not bad else '%d differences' % len(bad))
sys.exit(1 if bad else 0)
