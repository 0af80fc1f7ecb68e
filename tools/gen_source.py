"""Writes the source text of /repo/gostcrypto as Lean terms of the syntax in
lean/Verif/Source/Syntax.lean, one file for each Python file, to lean/Verif/Source/Text.

usage: python3 tools/gen_source.py /repo/gostcrypto lean/Verif/Source
"""
import ast
import os
import sys

REPO, OUT = sys.argv[1], sys.argv[2]

# Python file, name of the Lean file
FILES = [
    ('utils/utils.py', 'Utils'),
    ('gostoid/oid.py', 'Oid'),
    ('gostcipher/gost_34_12_2015.py', 'BlockCipher'),
    ('gostcipher/gost_34_13_2015.py', 'Modes'),
    ('gosthash/gost_34_11_2012.py', 'Hash'),
    ('gosthmac/r_50_1_113_2016.py', 'Hmac'),
    ('gostpbkdf/r_50_1_111_2016.py', 'Pbkdf'),
    ('gostrandom/r_1323565_1_006_2017.py', 'Random'),
    ('gostsignature/gost_34_10_2012.py', 'Signature'),
]
BUILTINS = {'len', 'bytearray', 'min', 'range', 'enumerate', 'tuple', 'int', 'hasattr', 'deepcopy'}
BINOPS = {ast.Add: 'add', ast.Sub: 'sub', ast.Mult: 'mul', ast.FloorDiv: 'floordiv',
          ast.Mod: 'mod', ast.Pow: 'pow', ast.BitAnd: 'band', ast.BitOr: 'bor',
          ast.BitXor: 'bxor', ast.LShift: 'shl', ast.RShift: 'shr'}
CMPOPS = {ast.Eq: 'eq', ast.NotEq: 'ne', ast.Lt: 'lt', ast.LtE: 'le', ast.Gt: 'gt',
          ast.GtE: 'ge', ast.In: 'isIn', ast.NotIn: 'notIn'}

trees, functions, classes = {}, {}, {}
for path, mod in FILES:
    tree = ast.parse(open(os.path.join(REPO, path)).read())
    trees[mod] = tree
    for node in tree.body:
        if isinstance(node, ast.FunctionDef):
            functions[(mod, node.name)] = node
        if isinstance(node, ast.ClassDef):
            classes[node.name] = node


def is_error(name):
    return [b.id for b in classes[name].bases] == ['Exception']


def linearize(name):
    """The method resolution order."""
    bases = [b.id for b in classes[name].bases if b.id in classes]
    seqs = [linearize(b) for b in bases] + [list(bases)]
    res = [name]
    while any(seqs):
        for seq in seqs:
            if seq and not any(seq[0] in other[1:] for other in seqs):
                head = seq[0]
                break
        res.append(head)
        seqs = [[x for x in seq if x != head] for seq in seqs]
    return res


def decorators(fn):
    return [d.id for d in fn.decorator_list]


def own(cls):
    return {f.name: f for f in classes[cls].body if isinstance(f, ast.FunctionDef)}


def resolve(order, method):
    for cls in order:
        if method in own(cls):
            return cls, own(cls)[method]
    raise KeyError(method)


def s(text):
    return '"' + text.replace('\\', '\\\\').replace('"', '\\"') + '"'


def lst(items):
    return '[' + ', '.join(items) + ']'


def num(i):
    return str(i) if i >= 0 else '(%d)' % i


def par(t):
    return t if (t[0] == '[' or ' ' not in t) else '(' + t + ')'


class Gen:
    def __init__(self, mod):
        self.mod = mod
        self.globals = {}       # name -> full name
        self.funcs = {}         # name -> full name
        for node in trees[mod].body:
            if isinstance(node, (ast.Assign, ast.AnnAssign)):
                t = node.targets[0] if isinstance(node, ast.Assign) else node.target
                self.globals[t.id] = mod + '.' + t.id
            if isinstance(node, ast.FunctionDef):
                self.funcs[node.name] = mod + '.' + node.name
            if isinstance(node, ast.ImportFrom):
                for a in node.names:
                    for m in trees:
                        if (m, a.name) in functions and a.name != 'new':
                            self.funcs[a.name] = m + '.' + a.name
        self.out = []
        self.table = []

    # expressions

    def e(self, n):
        return getattr(self, 'e_' + type(n).__name__)(n)

    def es(self, ns):
        return lst([self.e(n) for n in ns])

    def opt(self, n):
        return 'none' if n is None else '(some %s)' % par(self.e(n))

    def e_Constant(self, n):
        v = n.value
        if v is None:
            return '.none'
        if isinstance(v, bool):
            return '.bool ' + str(v).lower()
        if isinstance(v, int):
            return '.int ' + num(v)
        if isinstance(v, str):
            return '.str ' + s(v)
        assert isinstance(v, bytes)
        return '.bytes ' + lst([str(b) for b in v])

    def e_Name(self, n):
        if n.id in self.locals:
            return '.name ' + s(n.id)
        return '.glob ' + s(self.globals[n.id])

    def e_Attribute(self, n):
        return '.attr %s %s' % (par(self.e(n.value)), s(n.attr))

    def e_BinOp(self, n):
        return '.bin .%s %s %s' % (BINOPS[type(n.op)], par(self.e(n.left)), par(self.e(n.right)))

    def e_BoolOp(self, n):
        op = 'and' if isinstance(n.op, ast.And) else 'or'
        res = self.e(n.values[-1])
        for v in reversed(n.values[:-1]):
            res = '.%s %s %s' % (op, par(self.e(v)), par(res))
        return res

    def e_UnaryOp(self, n):
        if isinstance(n.op, ast.Not):
            return '.not ' + par(self.e(n.operand))
        assert isinstance(n.op, ast.USub)
        if isinstance(n.operand, ast.Constant):
            return '.int ' + num(-n.operand.value)
        return '.neg ' + par(self.e(n.operand))

    def e_Compare(self, n):
        assert len(n.ops) == 1
        return '.cmp .%s %s %s' % (CMPOPS[type(n.ops[0])], par(self.e(n.left)),
                                   par(self.e(n.comparators[0])))

    def e_Subscript(self, n):
        if isinstance(n.slice, ast.Slice):
            assert n.slice.step is None
            return '.slice %s %s %s' % (par(self.e(n.value)), self.opt(n.slice.lower),
                                        self.opt(n.slice.upper))
        return '.index %s %s' % (par(self.e(n.value)), par(self.e(n.slice)))

    def e_Tuple(self, n):
        return '.tuple ' + self.es(n.elts)

    def e_List(self, n):
        return '.list ' + self.es(n.elts)

    def e_ListComp(self, n):
        (g,) = n.generators
        assert not g.ifs
        it = self.e(g.iter)
        saved = set(self.locals)
        self.locals.add(g.target.id)
        res = '.comp %s %s %s' % (par(self.e(n.elt)), s(g.target.id), par(it))
        self.locals = saved
        return res

    e_GeneratorExp = e_ListComp

    def args(self, n, params=None):
        res = [self.e(a) for a in n.args]
        kw = {k.arg: k.value for k in n.keywords}
        if kw:
            for p in params[len(res):]:
                res.append(self.e(kw.pop(p)))
            assert not kw
        return lst(res)

    def e_Call(self, n):
        f = n.func
        if isinstance(f, ast.Name):
            name = f.id
            if name in self.nested:
                return '.call %s %s' % (s(self.nested[name]), self.args(n))
            if name == 'isinstance':
                assert ast.unparse(n.args[1]) == '(bytes, bytearray)'
                return '.builtin "isbytes" ' + self.es(n.args[:1])
            if name == 'pack':
                assert n.args[0].value == '>I'
                return '.builtin "pack>I" ' + self.es(n.args[1:])
            if name in self.funcs:
                return '.call %s %s' % (s(self.funcs[name]), self.args(n))
            if name in classes:
                init = resolve(linearize(name), '__init__')[1]
                params = [a.arg for a in init.args.args][1:]
                return '.new %s %s' % (s(name), self.args(n, params))
            assert name in BUILTINS, name
            return '.builtin %s %s' % (s(name), self.args(n))
        assert isinstance(f, ast.Attribute)
        text = ast.unparse(f)
        if text == 'int.from_bytes':
            return '.builtin "int.from_bytes" ' + self.args(n, ['bytes', 'byteorder'])
        if text == 'os.urandom':
            return '.builtin "os.urandom" ' + self.args(n)
        if isinstance(f.value, ast.Call) and ast.unparse(f.value) == 'super()':
            order = linearize(self.cls)[1:]
            # the class is not inherited from, so that its own order is the order of the object
            assert not any(self.cls in linearize(c)[1:] for c in classes)
            owner, _ = resolve(order, f.attr)
            return '.call %s %s' % (s(owner + '.' + f.attr),
                                    lst(['.name "self"'] + [self.e(a) for a in n.args]))
        if isinstance(f.value, ast.Name) and f.value.id in classes:
            owner, _ = resolve(linearize(f.value.id), f.attr)
            return '.call %s %s' % (s(owner + '.' + f.attr), self.args(n))
        params = ['length', 'byteorder'] if f.attr == 'to_bytes' else None
        return '.meth %s %s %s' % (par(self.e(f.value)), s(f.attr), self.args(n, params))

    # statements

    def target(self, t):
        if isinstance(t, ast.Name):
            self.locals.add(t.id)
            return '.name ' + s(t.id)
        if isinstance(t, ast.Attribute):
            return '.attr %s %s' % (par(self.e(t.value)), s(t.attr))
        if isinstance(t, ast.Subscript):
            return self.e_Subscript(t)
        assert isinstance(t, ast.Tuple)
        if isinstance(t.elts[0], ast.Name):
            for x in t.elts:
                self.locals.add(x.id)
            return '.names ' + lst([s(x.id) for x in t.elts])
        return '.attrs ' + lst(['(%s, %s)' % (self.e(x.value), s(x.attr)) for x in t.elts])

    def block(self, body, ind):
        lines = []
        for st in body:
            lines += self.stmt(st, ind + 2)
        if not lines:
            return ['[]']
        pad = ' ' * (ind + 1)
        res = []
        for i, item in enumerate(lines):
            res.append((' ' * ind + '[' if i == 0 else pad) + item
                       + (',' if i < len(lines) - 1 else ']'))
        return res

    def nest(self, head, *blocks):
        """A statement with nested blocks as one item."""
        ind = self.ind
        text = head
        for b in blocks:
            text += '\n' + '\n'.join(b)
        return text

    def stmt(self, st, ind):
        if isinstance(st, ast.Expr) and isinstance(st.value, ast.Constant):
            return []                                     # a docstring
        if isinstance(st, ast.Expr):
            return ['.expr ' + par(self.e(st.value))]
        if isinstance(st, ast.Assign):
            (t,) = st.targets
            val = self.e(st.value)
            return ['.assign %s %s' % (par(self.target(t)), par(val))]
        if isinstance(st, ast.AnnAssign):
            val = self.e(st.value)
            return ['.assign %s %s' % (par(self.target(st.target)), par(val))]
        if isinstance(st, ast.Return):
            return ['.ret ' + par(self.e(st.value))]
        if isinstance(st, ast.Raise):
            assert is_error(st.exc.func.id)
            return ['.raise %s %s' % (s(st.exc.func.id), s(st.exc.args[0].value))]
        if isinstance(st, ast.If):
            c = self.e(st.test)
            t = self.block(st.body, ind + 2)
            e = self.block(st.orelse, ind + 2) if st.orelse else [' ' * (ind + 2) + '[]']
            return ['.if_ %s\n%s\n%s' % (par(c), '\n'.join(t), '\n'.join(e))]
        if isinstance(st, ast.While):
            c = self.e(st.test)
            return ['.while_ %s\n%s' % (par(c), '\n'.join(self.block(st.body, ind + 2)))]
        if isinstance(st, ast.For):
            if isinstance(st.iter, ast.Call) and ast.unparse(st.iter.func) == 'self._bits':
                return self.bits(st, ind)
            it = self.e(st.iter)
            self.locals.add(st.target.id)
            body = self.block(st.body, ind + 2)
            return ['.for_ %s %s\n%s' % (s(st.target.id), par(it), '\n'.join(body))]
        if isinstance(st, ast.Try):
            (h,) = st.handlers
            assert h.type.id == 'ValueError' and not st.finalbody and not st.orelse
            return ['.tryValueError\n%s\n%s' % ('\n'.join(self.block(st.body, ind + 2)),
                                                '\n'.join(self.block(h.body, ind + 2)))]
        if isinstance(st, ast.Pass):
            return ['.pass']
        if isinstance(st, ast.FunctionDef):
            full = self.current + '.' + st.name
            self.nested[st.name] = full
            self.pending.append((full, st))
            return []
        raise AssertionError(ast.dump(st))

    def bits(self, st, ind):
        """`for x in self._bits(v)` with the generator
        `while value: yield e; rest` written out as a loop; `rest` runs after the body."""
        gen = own(self.cls)['_bits']
        body = [b for b in gen.body if not (isinstance(b, ast.Expr)
                                            and isinstance(b.value, ast.Constant))]
        (loop,) = body
        assert isinstance(loop, ast.While)
        (param,) = [a.arg for a in gen.args.args]
        new = '_bits.' + param

        class Rename(ast.NodeTransformer):
            def visit_Name(self, node):
                assert node.id == param
                return ast.Name(new, node.ctx)
        first, rest = loop.body[0], loop.body[1:]
        assert isinstance(first.value, ast.Yield)
        arg = self.e(st.iter.args[0])
        self.locals |= {new, st.target.id}
        r = Rename()
        yielded = ast.Assign([ast.Name(st.target.id)], r.visit(first.value.value))
        cond = self.e(r.visit(loop.test))
        inner = self.block([yielded] + st.body + [r.visit(x) for x in rest], ind + 2)
        return ['.assign (.name %s) %s' % (s(new), par(arg)),
                '.while_ %s\n%s' % (par(cond), '\n'.join(inner))]

    # functions

    def check(self, fn):
        """What the semantics leaves out does not occur."""
        properties = {x.name for c in classes for x in own(c).values() if 'property' in decorators(x)}
        stored = {n.id for n in ast.walk(fn) if isinstance(n, ast.Name) and isinstance(n.ctx, ast.Store)}
        # a name is local everywhere in a function or nowhere
        assert not stored & set(self.globals), stored & set(self.globals)
        for n in ast.walk(fn):
            if isinstance(n, (ast.For, ast.While)):
                assert not n.orelse
            if isinstance(n, ast.For):
                # the elements of a loop are fixed when it begins
                name = ast.unparse(n.iter.func) if isinstance(n.iter, ast.Call) else ''
                changes = any(isinstance(x, ast.Subscript) and isinstance(x.ctx, ast.Store) for x in ast.walk(n))
                assert name in ('range', 'self._bits') or name == 'enumerate' and not changes \
                    or isinstance(n.iter, ast.Subscript) and isinstance(n.iter.slice, ast.Slice), ast.unparse(n.iter)
            if isinstance(n, ast.Try):
                # the handler does not read variables
                assert all(isinstance(x, ast.Raise) for h in n.handlers for x in h.body)
            if isinstance(n, ast.Attribute) and isinstance(n.ctx, ast.Store):
                assert n.attr not in properties, n.attr

    def function(self, full, fn, cls, lean):
        self.check(fn)
        self.cls, self.current = cls, full
        self.nested, self.pending = dict(self.nested_outer), []
        params = [a.arg for a in fn.args.args]
        if fn.args.kwarg:
            params.append(fn.args.kwarg.arg)
        self.locals = set(params)
        defaults = self.es(fn.args.defaults)
        static = cls is None or 'staticmethod' in decorators(fn)
        body = '\n'.join(self.block(fn.body, 4)) if not self.is_gen(fn) else None
        if body is None:
            return
        first = min([fn.lineno] + [d.lineno for d in fn.decorator_list])
        self.out.append('/-- `%s`, %s %d-%d. -/\ndef %s : FunDef where\n  params := %s\n'
                        '  defaults := %s\n  static := %s\n  body :=\n%s\n'
                        % (full, self.path, first, fn.end_lineno, lean,
                           lst([s(p) for p in params]), defaults, str(static).lower(), body))
        self.table.append((full, lean))
        for name, node in self.pending:
            self.nested_outer = dict(self.nested)
            self.function(name, node, None, lean + '_' + node.name)
            self.nested_outer = {}

    def is_gen(self, fn):
        return any(isinstance(x, (ast.Yield, ast.YieldFrom)) for x in ast.walk(fn))

    def value(self, n):
        """A value of the module level."""
        env = {}
        code = ast.unparse(n)
        for node in trees[self.mod].body:
            if isinstance(node, (ast.Assign, ast.AnnAssign)) and node.value is not n:
                t = node.targets[0] if isinstance(node, ast.Assign) else node.target
                try:
                    env[t.id] = ast.literal_eval(node.value)
                except ValueError:
                    pass
        return eval(code, {'bytearray': bytearray, '__builtins__': {}}, env)

    def lean_value(self, v):
        if isinstance(v, int):
            return '.int ' + num(v)
        if isinstance(v, str):
            return '.str ' + s(v)
        if isinstance(v, bytearray):
            return '.bytes ' + lst([str(b) for b in v])
        if isinstance(v, dict):
            return '.dict [\n  ' + ',\n  '.join('(%s, %s)' % (s(k), self.lean_value(x))
                                                for k, x in v.items()) + ']'
        if isinstance(v, (list, tuple)):
            return 'ints [%s]' % ', '.join(str(x) for x in v)
        raise AssertionError(v)

    def curves(self, name, table):
        """The table of curves: the expressions of the arguments of `dict`, not evaluated."""
        self.locals, self.nested = set(), {}
        with open(os.path.join(OUT, 'Text', 'Curves.lean'), 'w') as f:
            f.write('import Verif.Source.Syntax\n\n/-! Written by `tools/gen_source.py` from the table '
                    '`%s` of\n%s: the arguments of `dict(...)` for each key. -/\n\n'
                    'namespace Gost.Src\n\n' % (name, self.path))
            rows = []
            for key, val in zip(table.keys, table.values):
                assert ast.unparse(val.func) == 'dict' and not val.args
                lean = 'Signature.curve_%d' % len(rows)
                args = ['(%s, %s)' % (s(k.arg), self.e(k.value)) for k in val.keywords]
                f.write(wrap('/-- %s, lines %d-%d. -/\ndef %s : List (String × Expr) :=\n  [%s]\n\n'
                             % (key.value, key.lineno, val.end_lineno, lean, ',\n   '.join(args))))
                rows.append('(%s, %s)' % (s(key.value), lean))
            f.write('/-- The table. -/\ndef Signature.curves : List (String × List (String × Expr)) :=\n'
                    '  [%s]\n\nend Gost.Src\n' % ',\n   '.join(rows))

    def run(self, path):
        self.path = os.path.basename(path)
        self.nested_outer = {}
        globs = []
        for node in trees[self.mod].body:
            if isinstance(node, (ast.Assign, ast.AnnAssign)):
                t = node.targets[0] if isinstance(node, ast.Assign) else node.target
                if t.id == 'CURVES_R_1323565_1_024_2019':
                    self.curves(t.id, node.value)
                if t.id in ('CipherType', 'CipherObjType', 'CURVES_R_1323565_1_024_2019'):
                    continue
                lean = self.mod + '.g' + (t.id if t.id[0] == '_' else '_' + t.id)
                val = self.value(node.value)
                text = self.lean_value(val)
                if isinstance(val, (list, tuple)) and not isinstance(val[0], int):
                    text = '.tuple ' + lst(['ints %s_%d' % (lean, i) for i in range(len(val))])
                    for i, row in enumerate(val):
                        self.out.append('/-- Row %d of `%s`. -/\ndef %s_%d : List Nat := %s\n'
                                        % (i, t.id, lean, i, wrap(lst([str(x) for x in row]))))
                self.out.append('/-- `%s`, %s %d-%d. -/\ndef %s : Val := %s\n'
                                % (t.id, self.path, node.lineno, node.end_lineno, lean,
                                   wrap(text)))
                globs.append((self.mod + '.' + t.id, lean))
                if isinstance(val, int):
                    numbers.append(lean)
            if isinstance(node, ast.FunctionDef):
                self.function(self.mod + '.' + node.name, node, None,
                              '%s.f_%s' % (self.mod, node.name))
            if isinstance(node, ast.ClassDef) and not is_error(node.name):
                for fn in node.body:
                    if isinstance(fn, ast.FunctionDef):
                        self.function(node.name + '.' + fn.name, fn, node.name,
                                      '%s.m_%s' % (node.name, fn.name))
        with open(os.path.join(OUT, 'Text', self.mod + '.lean'), 'w') as f:
            f.write('import Verif.Source.Syntax\n\n/-! Written by `tools/gen_source.py` from '
                    '/repo/gostcrypto/%s. -/\n\nnamespace Gost.Src\n\n' % path)
            f.write('\n'.join(wrap(x) for x in self.out))
            f.write('\nend Gost.Src\n')
        return globs, self.table


def wrap(text, width=98):
    """Long lines are broken at blanks outside string literals."""
    res = []
    for line in text.split('\n'):
        ind = len(line) - len(line.lstrip()) + 4
        while len(line) > width:
            cut, quoted = None, False
            for i, c in enumerate(line):
                if c == '"':
                    quoted = not quoted
                if c == ' ' and not quoted and i > ind and (i < width or cut is None):
                    cut = i
            if cut is None:
                break
            res.append(line[:cut])
            line = ' ' * ind + line[cut + 1:]
            if line.strip() == '':
                break
        res.append(line)
    return '\n'.join(res)


numbers = []


def main():
    os.makedirs(os.path.join(OUT, 'Text'), exist_ok=True)
    globs, table = [], []
    for path, mod in FILES:
        g, t = Gen(mod).run(path)
        globs += g
        table += t
    methods, props = [], []
    known = {full for full, _ in table}
    for cls in classes:
        if is_error(cls):
            continue
        order = linearize(cls)
        names = []
        for c in order:
            names += [m for m in own(c) if m not in names]
        for m in names:
            owner, fn = resolve(order, m)
            full = owner + '.' + m
            if full not in known:
                continue
            if 'property' in decorators(fn):
                props.append((cls, m, full))
            else:
                methods.append((cls, m, full, 'staticmethod' in decorators(fn)))
    with open(os.path.join(OUT, 'Program.lean'), 'w') as f:
        f.write('import Verif.Source.Semantics\n')
        for _, mod in FILES:
            f.write('import Verif.Source.Text.%s\n' % mod)
        f.write('\n/-! Written by `tools/gen_source.py`: the functions, the globals and the classes of '
                'the package. -/\n\nnamespace Gost.Src\n\n')
        f.write('/-- All functions and methods. -/\ndef fnTable : List (String × FunDef) :=\n  [%s]\n\n'
                % ',\n   '.join('(%s, %s)' % (s(a), b) for a, b in table))
        f.write('/-- All values of the module level which functions use. -/\n'
                'def globalTable : List (String × Val) :=\n  [%s]\n\n'
                % ',\n   '.join('(%s, %s)' % (s(a), b) for a, b in globs))
        def by_class(rows, typ, cells):
            return ',\n   '.join('(%s, [%s])' % (s(c), ',\n     '.join(cells(r) for r in rows if r[0] == c))
                                 for c in classes if not is_error(c) and any(r[0] == c for r in rows))
        f.write('/-- The methods of each class, inherited ones included. -/\n'
                'def methodTable : List (String × List (String × (String × Bool))) :=\n  [%s]\n\n'
                % by_class(methods, '', lambda r: '(%s, (%s, %s))' % (s(r[1]), s(r[2]), str(r[3]).lower())))
        f.write('/-- The properties of each class, inherited ones included. -/\n'
                'def propertyTable : List (String × List (String × String)) :=\n  [%s]\n\n'
                % by_class(props, '', lambda r: '(%s, %s)' % (s(r[1]), s(r[2]))))
        f.write('/-- The package. -/\ndef package : Program where\n'
                '  fn f := fnTable.lookup f\n  globals x := globalTable.lookup x\n'
                '  method c m := ((methodTable.lookup c).getD []).lookup m\n'
                '  property c m := ((propertyTable.lookup c).getD []).lookup m\n\nend Gost.Src\n')
    with open(os.path.join(OUT, 'Lookup.lean'), 'w') as f:
        f.write('import Verif.Source.Attr\nimport Verif.Source.Program\n\n'
                '/-! Written by `tools/gen_source.py`: what the names of the package stand for. -/\n\n'
                'namespace Gost.Src\n\n'
                'theorem lookup_ne {α : Type} {k a : String} (b : α) (l : List (String × α)) (h : k ≠ a) :\n'
                '    List.lookup k ((a, b) :: l) = List.lookup k l := by\n  have e : (k == a) = false := by simpa using h\n  simp only [List.lookup, e]\n\n'
                'theorem lookup_eq {α : Type} (k : String) (b : α) (l : List (String × α)) :\n'
                '    List.lookup k ((k, b) :: l) = some b := by\n  simp [List.lookup]\n\n'
                'theorem lookup_nil {α : Type} (k : String) : List.lookup k ([] : List (String × α)) = none := rfl\n\n'
                'macro "look" "[" args:Lean.Parser.Tactic.simpLemma,* "]" : tactic =>\n'
                '  `(tactic| simp only [package, ↓lookup_eq, ↓lookup_ne, lookup_nil, ne_eq, String.reduceEq, '
                'not_false_eq_true,\n      Option.getD_some, Option.getD_none, $args,*])\n\n')
        for a, b in table:
            f.write('theorem Fn.%s : package.fn %s =\n    some %s := by look [fnTable]\n' % (a, s(a), b))
        f.write('\n')
        for a, b in globs:
            f.write('@[pysem] theorem Glob.%s : package.globals %s =\n    some %s := by look [globalTable]\n'
                    % (a, s(a), b))
        f.write('\n')
        for g in numbers:
            f.write('attribute [pysem] %s\n' % g)
        f.write('\n')
        for c, m, x, st in methods:
            f.write('@[pysem] theorem Meth.%s.%s : package.method %s %s =\n    some (%s, %s) := by look [methodTable]\n'
                    % (c, m, s(c), s(m), s(x), str(st).lower()))
        f.write('\n')
        have = {(c, m) for c, m, _ in props}
        for c, m, x in props:
            f.write('@[pysem] theorem Prop.%s.%s : package.property %s %s =\n    some %s := by look [propertyTable]\n'
                    % (c, m, s(c), s(m), s(x)))
        for c in classes:
            if is_error(c):
                continue
            attrs = []
            for o in linearize(c):
                for node in ast.walk(classes[o]):
                    if isinstance(node, ast.Attribute) and isinstance(node.value, ast.Name) \
                            and node.value.id == 'self' and node.attr not in attrs:
                        attrs.append(node.attr)
            for a in attrs:
                if (c, a) not in have and not any((c, a) == (r[0], r[1]) for r in methods):
                    f.write('@[pysem] theorem Attr.%s.%s : package.property %s %s =\n    none := by look [propertyTable]\n'
                            % (c, a, s(c), s(a)))
        f.write('\nend Gost.Src\n')


main()
