"""Tests lean/Verif/Source/Semantics.lean and the translation of tools/gen_source.py against Python itself: random programs
(not the package) are run by Python and, translated, by the Lean semantics; results, exceptions and the final contents of
the arguments are compared.

usage: python3 tools/check_semantics.py seed number-of-functions out.lean    (then: cd lean; lake env lean out.lean)

The Lean file prints each difference, and how many calls agree. A call which the semantics does not define (`stuck`) is
counted separately.
"""
import os
import random
import re
import signal
import sys
import tempfile

SEED, COUNT, OUT = int(sys.argv[1]), int(sys.argv[2]), sys.argv[3]
rnd = random.Random(SEED)

HEAD = '''
TABLE = [3, 1, 4, 1, 5, 9, 2, 6]
LIMIT = 7
NAMES = {'one': 1, 'two': [5, 6], 'three': bytearray(b'xyz')}


class KError(Exception):
    pass


class Base:
    def __init__(self, value, data=bytearray(b'ab')):
        self._value = value
        self._data = bytearray(data)
        self._log = []

    def step(self, i):
        self._value = self._value + i
        self._log.append(i)
        if self._value > 100:
            raise KError('too large')
        return self._value

    @staticmethod
    def twice(x):
        return x * 2

    @property
    def data(self):
        return self._data

    @property
    def size(self):
        return len(self._data)

    def flip(self):
        for i in range(len(self._data)):
            self._data[i] = self._data[i] ^ 255
        return self

    def both(self):
        return self._value, self._data[0]


class Derived(Base):
    def __init__(self, value, data=bytearray(b'xyz')):
        super().__init__(value + 1, data)
        self._extra = data

    def step(self, i):
        self._extra = super().step(i)
        return self._extra + self.twice(i)


def helper(x, y=3):
    return x - y


def swap(data, i, j):
    tmp = data[i]
    data[i] = data[j]
    data[j] = tmp


def split(x):
    return x // 16, x % 16


def parse(text):
    res = []
    try:
        parts = text.split('.')
        for part in parts[0:]:
            res.append(int(part))
    except ValueError:
        raise KError('not a number')
    return res


def outer(x):
    def inner(y):
        if y <= 0:
            return 1
        return inner(y - 1) + 2
    return inner(x)


def total(data):
    res = 0
    for e in enumerate(data):
        res = res * 3 + e[0] * e[1]
    for i in range(len(data) - 1, -1, -2):
        res = res ^ (data[i] << i)
    return res


def deep(o):
    c = deepcopy(o)
    c.step(1)
    c.data[0] = 9
    return c


'''


class Prog:
    """A random function with parameters n, m (integers), b (bytes), a (bytearray), o (object)."""

    def __init__(self, name):
        self.name = name
        self.ints, self.byts, self.arrs, self.lsts, self.objs = ['n', 'm'], ['b'], ['a'], [], ['o']
        self.k = 0

    def fresh(self):
        self.k += 1
        return 'v%d' % self.k

    def int_(self, d=3):
        if d == 0 or rnd.random() < .25:
            return rnd.choice(self.ints + [str(rnd.randint(-3, 20)), str(rnd.choice([0, 1, 2, 255, 256])), 'LIMIT'])
        c = rnd.randrange(17)
        i = lambda: self.int_(d - 1)
        if c < 6:
            return '(%s %s %s)' % (i(), rnd.choice(['+', '-', '*', '//', '%', '&']), i())
        if c == 6:
            return '((%s & 255) %s (%s & 255))' % (i(), rnd.choice(['|', '^']), i())
        if c == 7:
            return '(%s %s (%s & 7))' % (i(), rnd.choice(['<<', '>>']), i())
        if c == 8:
            return '(%s ** (%s & 3))' % (i(), i())
        if c == 9:
            return '(-%s)' % i()
        if c == 10:
            return 'len(%s)' % self.seq(d - 1)
        if c == 11:
            return '%s[%s]' % (self.bytes_(d - 1), rnd.choice([i(), '0', '-1', '1', '2']))
        if c == 12:
            return 'min(%s, %s)' % (i(), i())
        if c == 13:
            return "int.from_bytes(%s, byteorder='big')" % self.bytes_(d - 1)
        if c == 14:
            return rnd.choice(['helper(%s)' % i(), 'helper(%s, %s)' % (i(), i()), 'Base.twice(%s)' % i(),
                               'outer(%s & 7)' % i()])
        if c == 15:
            return 'TABLE[%s]' % rnd.choice([i(), '(%s & 7)' % i()])
        return rnd.choice(['%s.bit_length()' % rnd.choice(self.ints), "NAMES.get('%s', %s)" % (rnd.choice(['one', 'four']), i()),
                           "NAMES.get('two', 0)[%s & 1]" % i(), "hasattr(o, '%s')" % rnd.choice(['_extra', '_none']),
                           'total(%s)' % self.bytes_(d - 1)])

    def bytes_(self, d=3):
        if d == 0 or rnd.random() < .3:
            return rnd.choice(self.byts + self.arrs + self.arrs + ["b'qwe'", "bytearray(b'12345')"])
        c = rnd.randrange(8)
        s = lambda: self.bytes_(d - 1)
        i = lambda: rnd.choice(['', self.int_(1), str(rnd.randint(-5, 5)), str(rnd.randint(0, 4))])
        if c < 3:
            return '%s[%s:%s]' % (s(), i(), i())
        if c == 3:
            return '(%s + %s)' % (s(), s())
        if c == 4:
            return 'bytearray(%s)' % rnd.choice([s(), '[%s & 255, %s]' % (self.int_(1), self.int_(1)),
                                                 '%s & 15' % self.int_(1),
                                                 '%s[i] ^ 1 for i in range(%s & 3)' % (s(), self.int_(1))])
        if c == 5:
            return "(%s).to_bytes(%s, byteorder='%s')" % (self.int_(d - 1), rnd.choice(['2', '4', self.int_(1)]),
                                                          rnd.choice(['big', 'little']))
        if c == 6:
            return "(b'ab' * %s)" % rnd.choice(['3', '(%s & 3)' % self.int_(1), '(0 - 1)'])
        return 'o.data' if 'o' in self.objs else s()

    def seq(self, d=2):
        c = rnd.randrange(3)
        if c == 0 and self.lsts:
            return rnd.choice(self.lsts)
        if c == 1:
            return 'range(%s)' % ', '.join(self.int_(1) if rnd.random() < .5 else str(rnd.randint(-4, 9))
                                           for _ in range(rnd.randint(1, 2)))
        return self.bytes_(d)

    def cond(self, d=2):
        c = rnd.randrange(8)
        if d == 0 or c < 3:
            return '%s %s %s' % (self.int_(d), rnd.choice(['==', '!=', '<', '<=', '>', '>=']), self.int_(d))
        if c == 3:
            return '(%s) %s (%s)' % (self.cond(d - 1), rnd.choice(['and', 'or']), self.cond(d - 1))
        if c == 4:
            return 'not (%s)' % self.cond(d - 1)
        if c == 5:
            return '%s %s %s' % (self.bytes_(1), rnd.choice(['==', '!=']), self.bytes_(1))
        if c == 6:
            return '%s %s (1, 2, LIMIT)' % (self.int_(1), rnd.choice(['in', 'not in']))
        return 'isinstance(%s, (bytes, bytearray))' % rnd.choice([self.bytes_(1), self.int_(1)])

    def stmts(self, ind, n, d):
        res = []
        for _ in range(n):
            res += self.stmt(ind, d)
        return res

    def stmt(self, ind, d):
        p = '    ' * ind
        c = rnd.randrange(22)
        if c < 3:
            e = self.int_()
            v = rnd.choice(self.ints + [self.fresh()])
            if ind == 1 and v not in self.ints:
                self.ints.append(v)
            return [p + '%s = %s' % (v, e)]
        if c < 6:
            e = self.bytes_()
            v = self.fresh()
            if ind == 1:
                self.arrs.append(v)
            return [p + '%s = bytearray(%s)' % (v, e)] if rnd.random() < .7 else [p + '%s = %s' % (v, e)]
        if c == 6:
            return [p + '%s[%s] = %s & 255' % (rnd.choice(self.arrs), rnd.choice(['0', '-1', self.int_(1)]), self.int_(2))]
        if c == 7:      # which of two errors comes first depends on the version of Python
            v = rnd.choice(self.arrs)
            return [p + 'if len(%s) > 0:' % v, p + '    %s[%s] = %s' % (v, rnd.choice(['0', '-1']), self.int_(2))]
        if c == 8:
            i = lambda: rnd.choice(['', '0', '1', '2', '-1', self.int_(1)])
            return [p + '%s[%s:%s] = %s' % (rnd.choice(self.arrs), i(), i(), self.bytes_(2))]
        if c in (9, 10) and d > 0:
            res = [p + 'if %s:' % self.cond()] + self.stmts(ind + 1, rnd.randint(1, 2), d - 1)
            if rnd.random() < .5:
                res += [p + 'else:'] + self.stmts(ind + 1, rnd.randint(1, 2), d - 1)
            return res
        if c in (11, 12) and d > 0:
            v = self.fresh()
            it = rnd.choice(['%s[0:]' % self.bytes_(1), self.seq()])   # not an object which the loop may change
            res = [p + 'for %s in %s:' % (v, it if it.startswith('range') or it.endswith('[0:]') else 'TABLE[1:]')]
            self.ints.append(v)
            res += self.stmts(ind + 1, rnd.randint(1, 2), d - 1)
            if ind > 1:
                self.ints.remove(v)
            return res
        if c == 13 and d > 0:
            v = self.fresh()
            res = [p + '%s = %s & 3' % (v, self.int_(1)), p + 'while %s > 0:' % v]
            res += self.stmts(ind + 1, rnd.randint(1, 2), d - 1)
            return res + ['    ' * (ind + 1) + '%s = %s - 1' % (v, v)]
        if c == 14:
            e, f = self.int_(2), self.int_(2)
            v, w = rnd.choice(self.ints), rnd.choice(self.ints)
            return [p + '%s, %s = %s' % (v, w, rnd.choice(['%s, %s' % (e, f), 'split(%s)' % e]))]
        if c == 15:
            v = self.fresh()
            res = [p + '%s = [%s]' % (v, ', '.join(self.int_(1) for _ in range(rnd.randint(0, 3)))) if rnd.random() < .5
                   else p + '%s = [x * 2 for x in %s]' % (v, self.seq())]
            if ind == 1:
                self.lsts.append(v)
            return res
        if c == 16 and self.lsts:
            l = rnd.choice(self.lsts)
            return [p + rnd.choice(['%s.append(%s)' % (l, self.int_(2)), '%s[%s] = %s' % (l, self.int_(1), self.int_(1))])]
        if c == 17:
            return [p + rnd.choice(['o.step(%s)' % self.int_(2), 'o.flip()', 'o.data[0] = %s & 255' % self.int_(1),
                                    'n = o.step(%s & 15)' % self.int_(1), 'n, m = o.both()', 'm = o.size',
                                    'n = o.twice(%s)' % self.int_(1), 'o._value = %s' % self.int_(1),
                                    'o._value, o._extra = %s, %s' % (self.int_(1), self.bytes_(1)),
                                    'swap(%s, %s, %s)' % (rnd.choice(self.arrs), self.int_(1), self.int_(1))])]
        if c == 18 and ind == 1 and rnd.random() < .5:
            return [p + 'o = %s' % rnd.choice(['Base(%s)' % self.int_(1), 'Base(%s, data=%s)' % (self.int_(1), self.bytes_(1)), 'Derived(%s, %s)' % (self.int_(1), self.bytes_(1)),
                                               'Derived(%s)' % self.int_(1), 'deep(o)', 'deepcopy(o)'])]
        if c == 19 and rnd.random() < .3:
            return [p + "raise KError('stop')"]
        if c == 20 and rnd.random() < .3:
            return [p + 'return %s' % rnd.choice([self.int_(2), self.bytes_(2), 'o', '(n, m)', '%s.hex()' % self.bytes_(1)])]
        if c == 21:
            return [p + 'parse(%s)' % rnd.choice(["'1.2.30'", "'1.-4'", "'1..2'", "'x.1'", "' 7 .1_0'", "'+5'"])]
        return [p + 'pass']

    def text(self):
        body = self.stmts(1, rnd.randint(2, 8), 2)
        ret = rnd.choice(['n', 'm', self.bytes_(2), '(n, m, a)', 'o', self.int_(2), '[n, a]'])
        return 'def %s(n, m, b, a, o):\n' % self.name + '\n'.join(body) + '\n    return %s\n\n\n' % ret


ARGS = [('0', '5', "b''", "bytearray(b'')", 'Base(1)'),
        ('3', '-2', "b'abc'", "bytearray(b'zyxwv')", "Derived(95, bytearray(b'qw'))"),
        ('17', '300', "b'\\x00\\xff'", "bytearray([1, 2, 3, 250, 255, 0, 7])", "Base(-4, b'hello')")]
ERR = {IndexError: 'index', OverflowError: 'overflow', ValueError: 'value', ZeroDivisionError: 'zeroDiv',
       TypeError: 'type', AttributeError: 'attribute', UnboundLocalError: 'name', NameError: 'name'}


def show(v):
    if v is None:
        return 'n'
    if isinstance(v, bool):
        return 'T' if v else 'F'
    if isinstance(v, int):
        return str(v)
    if isinstance(v, str):
        return '"' + v + '"'
    if isinstance(v, bytes):
        return 'b' + v.hex()
    if isinstance(v, bytearray):
        return 'a' + v.hex()
    if isinstance(v, range):
        v = tuple(v)
    if isinstance(v, (tuple, list)):
        return '(['[isinstance(v, list)] + ','.join(show(x) for x in v) + ')]'[isinstance(v, list)]
    return type(v).__name__ + '{' + ','.join(k + '=' + show(x) for k, x in v.__dict__.items()) + '}'


progs = [Prog('f%d' % i).text() for i in range(COUNT)]
text = HEAD + ''.join(progs)
env = {}
exec('from copy import deepcopy\n' + text, env)
cases = []


class Long(BaseException):
    pass


def stop(*_):
    raise Long


signal.signal(signal.SIGALRM, stop)
sys.setrecursionlimit(400)
sys.set_int_max_str_digits(0)
for i in range(COUNT):
    for args in ARGS:
        vals = [eval(x, env) for x in args]
        signal.setitimer(signal.ITIMER_REAL, 0.05)
        try:
            ret = env['f%d' % i](*vals)
            signal.setitimer(signal.ITIMER_REAL, 0)
            res = show(ret)
        except (Long, MemoryError, RecursionError):
            continue
        except env['KError'] as e:
            res = '!KError ' + str(e)
        except tuple(ERR) as e:
            res = '!' + next(ERR[t] for t in type(e).__mro__ if t in ERR)
        signal.setitimer(signal.ITIMER_REAL, 0)
        cases.append((i, args, res + ' | ' + ' '.join(show(v) for v in vals[2:])))

# the translation
work = tempfile.mkdtemp()
os.makedirs(work + '/src')
os.makedirs(work + '/out')
calls = ''.join('def call_%d():\n    return (%s)\n\n\n' % (k, ', '.join(a)) for k, a in enumerate(ARGS))
open(work + '/src/t.py', 'w').write(text + calls)
gen = open(os.path.join(os.path.dirname(os.path.abspath(__file__)), 'gen_source.py')).read()
gen = re.sub(r'FILES = \[.*?\n\]', "FILES = [('t.py', 'T')]", gen, flags=re.S)
saved, sys.argv = sys.argv, ['gen', work + '/src', work + '/out']
exec(compile(gen, 'gen_source', 'exec'), {'__name__': 'gen'})
sys.argv = saved
lean_text = open(work + '/out/Text/T.lean').read().split('namespace Gost.Src', 1)[1].rsplit('end Gost.Src', 1)[0]
prog = open(work + '/out/Program.lean').read().split('namespace Gost.Src', 1)[1].rsplit('end Gost.Src', 1)[0]
with open(OUT, 'w') as f:
    f.write('import Verif.Source.Semantics\n\nnamespace Gost.Src.Test\n' + lean_text + prog)
    f.write('''
def hex (b : Bytes) : String := String.ofList (pyHex b)

def obs : Nat → Val → Heap → String
  | 0, _, _ => "deep"
  | k + 1, v, h =>
    match v with
    | .none => "n"
    | .bool b => if b then "T" else "F"
    | .int i => toString i
    | .str s => "\\"" ++ s ++ "\\""
    | .bytes b => "b" ++ hex b
    | .tuple l => "(" ++ ",".intercalate (l.map fun x => obs k x h) ++ ")"
    | .dict _ => "dict"
    | .ref r =>
      match h[r]? with
      | some (.bytearray b) => "a" ++ hex b
      | some (.list l) => "[" ++ ",".intercalate (l.map fun x => obs k x h) ++ "]"
      | some (.inst c l) => c ++ "{" ++ ",".intercalate (l.map fun x => x.1 ++ "=" ++ obs k x.2 h) ++ "}"
      | none => "dangling"

def obsOut : Out Val → String
  | (.ok v, h) => obs 8 v h
  | (.error (.raised c m), _) => "!" ++ c ++ " " ++ m
  | (.error .index, _) => "!index"
  | (.error .overflow, _) => "!overflow"
  | (.error .value, _) => "!value"
  | (.error .zeroDiv, _) => "!zeroDiv"
  | (.error .type, _) => "!type"
  | (.error .attribute, _) => "!attribute"
  | (.error .name, _) => "!name"
  | (.error .stuck, _) => "!stuck"
  | (.error .fuel, _) => "!fuel"

def test (f : String) (k : Nat) : String :=
  match call package 1000 300 s!"T.call_{k}" [] [] with
  | (.ok (.tuple vs), h) =>
    let o := call package 1000 300 ("T." ++ f) vs h
    obsOut o ++ " | " ++ " ".intercalate ((vs.drop 2).map fun v => obs 8 v o.2)
  | _ => "arguments"

def cases : List (String × Nat × String) := [
''')
    f.write(',\n'.join('  ("f%d", %d, "%s")' % (i, ARGS.index(a), r.replace('\\', '\\\\').replace('"', '\\"'))
                       for i, a, r in cases))
    f.write(''']

#eval show IO Unit from do
  let mut good := 0
  let mut stuck := 0
  for (f, k, r) in cases do
    let t := test f k
    if t == r then good := good + 1
    else if t.startsWith "!stuck" then stuck := stuck + 1
    else IO.println s!"{f} {k}: {t} instead of {r}"
  IO.println s!"{good} of {cases.length} agree, {stuck} are not defined"

end Gost.Src.Test
''')
open(OUT + '.py', 'w').write(text)
