#!/usr/bin/env python3
"""Writes the C sources of the library as Lean syntax trees.

Usage: python3 tools/c2lean.py REPO lean/Verif/Source

Reads REPO/sml/src/*.c, REPO/sml/include/sml/*.h, REPO/examples/sml_server.c and REPO/examples/unit.h as text and writes Names.lean,
one module per C file and Program.lean. The meaning
of the trees is in Verif/Source/Lang.lean. What happens here: comments are dropped, macros of the library's own headers are expanded,
names of variables become numbers, names of members become positions, and every operation is marked with the integer
type it works on. Constant expressions with a shift are folded. Nothing else is changed: the order of statements, the
conditions and the calls are those of the text, which is quoted beside each function.

A pointer that walks over a constant array of structures is the index it has there. Output to `stdout` keeps its format, for output to
`stderr` only the arguments are kept. `FD_ZERO`, `FD_SET`, `FD_ISSET`, `select`, `read`, `write`, `errno`, `uuid_generate`, `getopt`, `open`,
`close` and what deals with the serial line become operations of their own. The constants of the system headers have the values of
Linux, O_NONBLOCK is defined and SML_NO_UUID_LIB is not.
"""
import os
import re
import sys

# constants of <errno.h>, <fcntl.h>, <termios.h> and <sys/ioctl.h>
SYSTEM = {'EINTR': 4, 'EAGAIN': 11, 'O_RDWR': 0o2, 'O_NOCTTY': 0o400, 'O_NONBLOCK': 0o4000, 'TIOCM_RTS': 0x4, 'TCSANOW': 0,
          'IGNBRK': 0o1, 'BRKINT': 0o2, 'PARMRK': 0o10, 'ISTRIP': 0o40, 'INLCR': 0o100, 'IGNCR': 0o200, 'ICRNL': 0o400, 'IXON': 0o2000,
          'OPOST': 0o1, 'ECHO': 0o10, 'ECHONL': 0o100, 'ICANON': 0o2, 'ISIG': 0o1, 'IEXTEN': 0o100000,
          'CSIZE': 0o60, 'PARENB': 0o400, 'PARODD': 0o1000, 'CSTOPB': 0o100, 'CS8': 0o60, 'B9600': 0o15}
DEFINED = {'O_NONBLOCK'}

# static functions of the same name in two files; the first word of the file name is appended
TWICE = {'sml_period_entry_free_', 'sml_period_entry_parse_', 'sml_period_entry_write_'}

# ---------------------------------------------------------------- preprocessor

TOK = re.compile(r'''(?P<ws>[ \t\r\f\v]+)|(?P<nl>\n)|(?P<num>0[xX][0-9a-fA-F]+|\d+)[uUlL]*|(?P<id>[A-Za-z_]\w*)
    |(?P<str>"(?:[^"\\]|\\.)*")|(?P<chr>'(?:[^'\\]|\\.)')
    |(?P<op>->|\+\+|--|<<=|>>=|<<|>>|<=|>=|==|!=|&&|\|\||\+=|-=|\*=|/=|%=|&=|\|=|\^=|\.\.\.|[-+*/%&|^~!<>=?:;,.(){}\[\]#])''', re.X)


class Tok:
    __slots__ = ('k', 'v', 'line', 'file')

    def __init__(self, k, v, line, file):
        self.k, self.v, self.line, self.file = k, v, line, file

    def __repr__(self):
        return '%s@%s:%d' % (self.v, self.file, self.line)


def strip_comments(s):
    def rep(m):
        t = m.group(0)
        if t[0] in '"\'':
            return t
        return ''.join('\n' if c == '\n' else ' ' for c in t)
    return re.sub(r'"(?:[^"\\]|\\.)*"|\'(?:[^\'\\]|\\.)\'|/\*.*?\*/|//[^\n]*', rep, s, flags=re.S)


def lex(s, file, line=1):
    out, i = [], 0
    while i < len(s):
        m = TOK.match(s, i)
        if not m:
            raise SyntaxError('%s:%d: %r' % (file, line, s[i:i + 20]))
        k = m.lastgroup
        if k == 'nl':
            line += 1
        elif k != 'ws':
            out.append(Tok(k, m.group(k), line, file))
        i = m.end()
    return out


class Pre:
    """The preprocessor: own headers are included, system headers are not."""

    def __init__(self, repo):
        self.repo, self.macros, self.seen = repo, {}, set()

    def expand(self, toks, busy=()):
        out, i = [], 0
        while i < len(toks):
            t = toks[i]
            if t.k == 'id' and t.v in self.macros and t.v not in busy:
                params, body = self.macros[t.v]
                if params is None:
                    out += self.expand([Tok(b.k, b.v, t.line, t.file) for b in body], busy + (t.v,))
                    i += 1
                    continue
                if i + 1 < len(toks) and toks[i + 1].v == '(':
                    depth, j, args, cur = 1, i + 2, [], []
                    while depth:
                        x = toks[j]
                        if x.v in '([{':
                            depth += 1
                        elif x.v in ')]}':
                            depth -= 1
                        if depth == 0 or (depth == 1 and x.v == ','):
                            args.append(cur)
                            cur = []
                        else:
                            cur.append(x)
                        j += 1
                    if not params:
                        args = []
                    assert len(args) == len(params), t
                    sub = dict(zip(params, args))
                    res = []
                    for b in body:
                        if b.k == 'id' and b.v in sub:
                            res += self.expand(sub[b.v], busy)
                        else:
                            res.append(Tok(b.k, b.v, t.line, t.file))
                    out += self.expand(res, busy + (t.v,))
                    i = j
                    continue
            out.append(t)
            i += 1
        return out

    def file(self, path):
        rel = os.path.relpath(path, self.repo)
        lines = strip_comments(open(path).read()).split('\n')
        out, on, pend, pline = [], [True], [], None
        i = 0
        while i < len(lines):
            ln, start = lines[i], i + 1
            m = re.match(r'\s*#\s*(\w+)\s*(.*)$', ln)
            if not m:
                if all(on):
                    pend += lex(ln, rel, start)
                i += 1
                continue
            out += self.expand(pend)
            pend = []
            d, rest = m.group(1), m.group(2)
            while rest.endswith('\\'):
                i += 1
                rest = rest[:-1] + lines[i]
            i += 1
            if d == 'ifdef':
                on.append(rest.strip() in self.macros or rest.strip() in DEFINED)
            elif d == 'ifndef':
                on.append(rest.strip() not in self.macros and rest.strip() not in DEFINED)
            elif d == 'else':
                on[-1] = not on[-1]
            elif d == 'endif':
                on.pop()
            elif not all(on):
                pass
            elif d == 'define':
                m = re.match(r'(\w+)(\(([^)]*)\))?\s*(.*)$', rest)
                params = None
                if m.group(2):
                    params = [p.strip() for p in m.group(3).split(',') if p.strip()]
                self.macros[m.group(1)] = (params, lex(m.group(4), rel, start))
            elif d == 'include':
                m = re.match(r'[<"](.*)[>"]', rest.strip())
                name = os.path.basename(m.group(1))
                inc = os.path.join(self.repo, 'sml/include/sml', name)
                if name == 'unit.h':
                    inc = os.path.join(self.repo, 'examples', name)
                if name.startswith(('sml_', 'unit')) and os.path.exists(inc):
                    if inc not in self.seen:
                        self.seen.add(inc)
                        out += self.file(inc)
            else:
                raise SyntaxError(d)
        return out + self.expand(pend)


# ---------------------------------------------------------------- types

class Ty:
    pass


class Int(Ty):
    def __init__(self, n):
        self.n = n

    def __eq__(self, o):
        return isinstance(o, Int) and o.n == self.n

    def __repr__(self):
        return self.n


class Void(Ty):
    pass


class Ptr(Ty):
    def __init__(self, to):
        self.to = to


class Arr(Ty):
    def __init__(self, of, n=None):
        self.of, self.n = of, n


class Func(Ty):
    def __init__(self, res, params):
        self.res, self.params = res, params


class Struct(Ty):
    """Members: (name, type); a union of pointers is the member of its own name."""

    def __init__(self, name):
        self.name, self.members = name, None

    def layout(self):
        """name -> ('p'|'i'|'f', position, type)"""
        r, np, ni = {}, 0, 0
        for n, t in self.members:
            if isinstance(t, Union):
                assert all(isinstance(x, Ptr) for _, x in t.members)
                r[n] = ('p', np, t)
                np += 1
            elif isinstance(t, Ptr) and isinstance(t.to, Func):
                r[n] = ('f', ni, t)
                ni += 1
            elif isinstance(t, Ptr):
                r[n] = ('p', np, t)
                np += 1
            else:
                assert isinstance(t, Int), (self.name, n)
                r[n] = ('i', ni, t)
                ni += 1
        return r, np, ni


class FdSet(Ty):
    pass


class Dbl(Ty):
    pass


class TabPtr(Ty):
    """A pointer into a constant array of structures."""

    def __init__(self, table, to):
        self.table, self.to = table, to


class Union(Ty):
    def __init__(self):
        self.members = None


BITS = {'bit': 1, 'bool': 8, 'u8': 8, 'i8': 8, 'u16': 16, 'i16': 16, 'u32': 32, 'i32': 32, 'u64': 64, 'i64': 64}


def name_of(t):
    """A type as text, to compare types."""
    if isinstance(t, Ptr):
        return name_of(t.to) + '*'
    if isinstance(t, Func):
        return '%s(%s)' % (name_of(t.res), ','.join(name_of(p[1] if isinstance(p, tuple) else p) for p in t.params))
    if isinstance(t, (Int, Void, Struct, Dbl)):
        return t.n if isinstance(t, Int) else t.name if isinstance(t, Struct) else type(t).__name__
    return '?%d' % id(t)


def promote(n):
    return n if n in ('u32', 'u64', 'i64') else 'i32'


def usual(a, b):
    a, b = promote(a), promote(b)
    for t in ('u64', 'i64', 'u32'):
        if t in (a, b):
            return t
    return 'i32'


BASE = {'uint8_t': 'u8', 'uint16_t': 'u16', 'uint32_t': 'u32', 'uint64_t': 'u64', 'int8_t': 'i8', 'int16_t': 'i16',
        'int32_t': 'i32', 'int64_t': 'i64', 'size_t': 'u64', 'ssize_t': 'i64', 'bool': 'bool'}


def sizeof(t):
    if isinstance(t, Int):
        return BITS[t.n] // 8
    if isinstance(t, Ptr):
        return 8
    if isinstance(t, Arr):
        return sizeof(t.of) * t.n
    if isinstance(t, Struct):
        return sum(sizeof(x) for _, x in t.members)   # only used in quotients
    if isinstance(t, Union):
        return 8
    raise TypeError(t)


# ---------------------------------------------------------------- parser and translator

class E:
    """A translated expression: Lean text, type, value of a constant, and what is needed to assign to it."""

    def __init__(self, s, t, c=None, lv=None):
        self.s, self.t, self.c, self.lv = s, t, c, lv


def par(s):
    return s if re.fullmatch(r'[\w.]+|\(.*\)|\[[^\[\]]*\]', s) and s.count('(') == s.count(')') and bal(s) else '(' + s + ')'


def bal(s):
    if not s.startswith('('):
        return True
    d = 0
    for i, c in enumerate(s):
        d += c == '('
        d -= c == ')'
        if d == 0 and i < len(s) - 1:
            return False
    return True


def num(n):
    return str(n) if n >= 0 else '(%d)' % n


class Parser:
    def __init__(self, toks, glob):
        self.t, self.i, self.g = toks, 0, glob
        self.scopes = []

    # -- tokens
    def peek(self, k=0):
        return self.t[self.i + k].v if self.i + k < len(self.t) else None

    def tok(self):
        return self.t[self.i]

    def next(self):
        self.i += 1
        return self.t[self.i - 1].v

    def eat(self, v):
        if self.peek() != v:
            raise SyntaxError('expected %s at %r' % (v, self.t[self.i:self.i + 5]))
        self.i += 1

    def opt(self, v):
        if self.peek() == v:
            self.i += 1
            return True
        return False

    # -- types
    def is_type(self, k=0):
        v = self.peek(k)
        return v in ('const', 'static', 'unsigned', 'signed', 'int', 'char', 'short', 'long', 'void', 'struct', 'union', 'extern', 'double') \
            or v in BASE or v in self.g.typedefs

    def base_type(self):
        words = []
        ty = None
        while True:
            v = self.peek()
            if v in ('const', 'static', 'extern'):
                self.next()
            elif v in ('unsigned', 'signed', 'int', 'char', 'short', 'long', 'double'):
                words.append(self.next())
            elif v == 'void':
                self.next()
                ty = Void()
            elif v in ('struct', 'union'):
                ty = self.struct()
            elif ty is None and not words and v in BASE:
                self.next()
                ty = Int(BASE[v])
            elif ty is None and not words and v in self.g.typedefs:
                self.next()
                ty = self.g.typedefs[v]
            else:
                break
        if words:
            u = 'unsigned' in words
            if 'double' in words:
                ty = Dbl()
            elif 'char' in words:
                ty = Int('u8' if u else 'i8')
            elif 'short' in words:
                ty = Int('u16' if u else 'i16')
            elif 'long' in words:
                ty = Int('u64' if u else 'i64')
            else:
                ty = Int('u32' if u else 'i32')
        return ty

    def struct(self):
        kind = self.next()
        name = None
        if self.tok().k == 'id':
            name = self.next()
        if kind == 'struct':
            s = self.g.structs.get(name) if name else None
            if s is None:
                s = Struct(name)
                if name:
                    self.g.structs[name] = s
        else:
            s = Union()
        if self.opt('{'):
            ms = []
            while not self.opt('}'):
                b = self.base_type()
                while True:
                    n, t = self.declarator(b)
                    if self.opt(':'):
                        assert self.next() == '1' and t == Int('u32')
                        t = Int('bit')
                    ms.append((n, t))
                    if not self.opt(','):
                        break
                self.eat(';')
            s.members = ms
        return s

    def declarator(self, ty):
        while self.opt('*'):
            ty = Ptr(ty)
            self.opt('const')
        if self.peek() == '(' and self.peek(1) == '*':
            self.next()
            self.next()
            n = self.next()
            self.eat(')')
            return n, Ptr(Func(ty, [t for _, t in self.params()]))
        n = self.next() if self.tok().k == 'id' else None
        if self.peek() == '__attribute__':
            self.attribute()
        if self.peek() == '(':
            return n, Func(ty, self.params())
        if self.opt('['):
            if self.opt(']'):
                return n, Arr(ty)
            e = self.expr()
            self.eat(']')
            return n, Arr(ty, e)
        return n, ty

    def attribute(self):
        self.next()
        self.eat('(')
        d = 1
        while d:
            v = self.next()
            d += v == '('
            d -= v == ')'

    def params(self):
        self.eat('(')
        ps = []
        while not self.opt(')'):
            b = self.base_type()
            n, t = self.declarator(b)
            if self.peek() == '__attribute__':
                self.attribute()
            self.opt(',')
            if isinstance(t, Void) and n is None:
                continue
            ps.append((n, Ptr(t.of) if isinstance(t, Arr) else t))
        return ps

    def type_name(self):
        b = self.base_type()
        n, t = self.declarator(b)
        return t

    # -- names
    def lookup(self, n):
        for s in reversed(self.scopes):
            if n in s:
                return s[n]
        return None

    def declare(self, n, t):
        x = self.nvars
        self.nvars += 1
        self.names.append((x, n))
        self.scopes[-1][n] = ('var', x, t)
        return x

    # -- expressions; C precedence
    def lit(self, ty, n):
        return E('.lit .%s %s' % (ty, num(n)), Int(ty), n)

    def primary(self):
        t = self.tok()
        if t.k == 'num':
            self.next()
            n = int(t.v, 0)
            return self.lit('i32' if n < 2**31 else ('u32' if n < 2**32 and t.v[:2].lower() == '0x' else 'i64'), n)
        if t.k == 'chr':
            self.next()
            return self.lit('i32', ord(t.v[1:-1]))
        if t.k == 'str':
            self.next()
            v = t.v[1:-1]
            while self.tok().k == 'str':
                v += self.next()[1:-1]
            return E('.str "%s"' % v, Ptr(Int('i8')), None, ('str', v))
        if self.opt('('):
            if self.is_type():
                ty = self.type_name()
                self.eat(')')
                if self.peek() == '{':
                    return self.compound(ty)
                return self.cast(ty, self.unary())
            e = self.expr()
            if self.opt('='):
                r = self.expr()
                assert e.lv[0] == 'var'
                if isinstance(e.t, Ptr):
                    e = E('.assignPtr %d %s' % (e.lv[1], par(self.ptr_arg(r))), e.t)
                else:
                    e = E('.assign .%s %d %s' % (e.t.n, e.lv[1], par(r.s)), e.t)
            self.eat(')')
            return e
        n = self.next()
        if n in ('true', 'false'):
            return self.lit('i32', int(n == 'true'))
        if n == 'NULL':
            return E('.null', Ptr(Void()))
        if n == '__func__':
            return E('""', Ptr(Int('i8')), None, ('str', '""'))
        if n == 'errno':
            return E('.errno', Int('i32'))
        if n in ('TIOCMGET', 'TIOCMSET'):
            return E('', Int('u64'), None, ('request', n))
        if n in SYSTEM:
            return self.lit('i32', SYSTEM[n])
        if n == 'optind':
            return E('.flag 2', Int('i32'))
        if n in ('stderr', 'stdout'):
            return E('""', Ptr(Void()), None, ('str', ''))
        if self.peek() == '(' and self.lookup(n) is None:
            return self.builtin(n)
        v = self.lookup(n)
        if v is None:
            if n in self.g.globals:
                return E('.flag %d' % self.g.globals.index(n), Int('i32'), None, ('flag', self.g.globals.index(n)))
            if n in self.g.tables and isinstance(self.g.tables[n][0], Struct):
                return E('', Arr(self.g.tables[n][0]), None, ('stable', n))
            if n in self.g.tables:
                return E('', Arr(Int(self.g.tables[n][0])), None, ('table', n))
            if n in self.g.funcs:
                self.g.used.add(n)
                return E('.fn .%s' % n, Ptr(self.g.funcs[n]))
            raise NameError(n, t)
        if v[0] == 'var':
            return E('.var %d' % v[1], v[2], None, ('var', v[1], v[2]))
        if v[0] == 'mem':      # an object whose address is taken
            _, x, ty = v
            if isinstance(ty, Ptr):
                return E('.ldPtr (.var %d) 0' % x, ty, None, ('slot', '.var %d' % x, 0))
            if isinstance(ty, Int):
                return E('.deref .%s (.var %d)' % (ty.n, x), ty, None, ('deref', '.var %d' % x))
            return E('.var %d' % x, ty, None, ('obj', x))
        if v[0] == 'table':
            return E('', v[2], None, ('ltable', v[1]))
        raise NameError(n)

    def cast(self, ty, e):
        if isinstance(ty, Int):
            if e.c is not None:
                return self.lit(ty.n, conv(ty.n, e.c))
            return E('.cast .%s %s' % (ty.n, par(e.s)), ty)
        return E(e.s, ty, None, e.lv)

    def compound(self, ty):
        self.eat('{')
        vals = {}
        while not self.opt('}'):
            self.eat('.')
            n = self.next()
            m = dict(ty.members)[n]
            if isinstance(m, Union):
                self.eat('.')
                u = self.next()
                m = dict(m.members)[u]
            self.eat('=')
            vals[n] = (self.assign_expr(), m)
            self.opt(',')
        return E('', ty, None, ('literal', vals))

    def ptr_arg(self, e):
        """An expression used as a pointer."""
        if e.c == 0 and isinstance(e.t, Int):
            return '.null'
        return e.s

    def args(self, f):
        self.eat('(')
        out = []
        while not self.opt(')'):
            out.append(self.assign_expr())
            self.opt(',')
        return out

    def dbl(self, e):
        """An expression used as a number of type double."""
        return e.s if isinstance(e.t, Dbl) else '.toDbl %s' % par(e.s)

    CONV = {'%d': 'dec', '%zu': 'size', '%02X': 'hex2', '%4.X': 'hex4', '%s': 'str', '%.*f': 'fixed'}

    def pieces(self, f):
        """The parts of a format."""
        out, cur, i = [], '', 0
        while i < len(f):
            if f[i] == '%':
                c = [x for x in self.CONV if f.startswith(x, i)]
                assert len(c) == 1, f
                if cur:
                    out.append('.text "%s"' % cur)
                cur = ''
                out.append('.' + self.CONV[c[0]])
                i += len(c[0])
            else:
                cur += f[i]
                i += 1
        if cur:
            out.append('.text "%s"' % cur)
        return '[' + ', '.join(out) + ']'

    def pass_args(self, f, args):
        ps = [t for _, t in f.params] if f.params and isinstance(f.params[0], tuple) else f.params
        if len(ps) != len(args):
            raise TypeError(ps, args)
        return '[' + ', '.join(self.ptr_arg(a) if isinstance(p, Ptr) else a.s for p, a in zip(ps, args)) + ']'

    def builtin(self, n):
        if n == 'sizeof':
            self.eat('(')
            if self.is_type():
                t = self.type_name()
            else:
                t = self.expr().t
            self.eat(')')
            if isinstance(t, Arr) and isinstance(t.n, E):
                t = Arr(t.of, t.n.c)
            return E('.lit .u64 %d' % (0 if isinstance(t, Struct) else sizeof(t)), Int('u64'), sizeof(t), ('sizeof', t))
        if n == 'malloc':
            self.eat('(')
            a = self.expr()
            self.eat(')')
            if a.lv and a.lv[0] == 'sizeof' and isinstance(a.lv[1], Struct):
                _, np, ni = a.lv[1].layout()
                return E('.mallocRec %d %d' % (np, ni), Ptr(a.lv[1]))
            return E('.mallocBytes %s' % par(a.s), Ptr(Void()))
        if n in ('FD_ZERO', 'FD_SET', 'FD_ISSET', 'select', 'read', 'write', 'uuid_generate'):
            a = self.args(None)
            s = [par(x.s) for x in a]
            if n == 'FD_ZERO':
                return E('', Void(), None, ('stmt', '.fdZero %s' % s[0]))
            if n == 'FD_SET':
                return E('', Void(), None, ('stmt', '.fdAdd %s %s' % (s[0], s[1])))
            if n == 'FD_ISSET':
                return E('.fdHas %s %s' % (s[0], s[1]), Int('i32'))
            if n == 'select':
                assert all(x.c == 0 for x in a[2:])
                return E('', Void(), None, ('stmt', '.select %s %s' % (s[0], s[1])))
            if n == 'uuid_generate':
                return E('', Void(), None, ('stmt', '.uuid %s' % s[0]))
            return E('.%s %s %s %s' % (n, s[0], s[1], s[2]), Int('i64'))
        if n == 'pow':
            a = self.args(None)
            assert a[0].c == 10
            return E('.pow10 %s' % par(a[1].s), Dbl())
        if n == 'strcmp':
            a = self.args(None)
            return E('.strcmp %s %s' % (par(a[0].s), par(a[1].s)), Int('i32'))
        if n == 'strerror':
            return self.args(None)[0]
        if n == 'getopt':
            a = self.args(None)
            f = a[2].lv[1]
            assert f[0] == '+' and ':' not in f
            return E('.getopt %s %s "%s"' % (par(a[0].s), par(a[1].s), f[1:]), Int('i32'))
        if n == 'open':
            a = self.args(None)
            return E('.openFile %s %s' % (par(a[0].s), par(a[1].s)), Int('i32'))
        if n == 'close':
            a = self.args(None)
            return E('', Void(), None, ('stmt', '.close %s' % par(a[0].s)))
        if n == 'ioctl':
            a = self.args(None)
            c = {'TIOCMGET': 'modemGet', 'TIOCMSET': 'modemSet'}[a[1].lv[1]]
            return E('', Void(), None, ('stmt', '.%s %s %s' % (c, par(a[0].s), par(a[2].s))))
        if n == 'tcgetattr':
            a = self.args(None)
            return E('', Void(), None, ('stmt', '.termGet %s %s' % (par(a[0].s), par(a[1].s))))
        if n == 'tcsetattr':
            a = self.args(None)
            assert a[1].c == SYSTEM['TCSANOW']
            return E('', Void(), None, ('stmt', '.termSet %s %s' % (par(a[0].s), par(a[2].s))))
        if n in ('cfsetispeed', 'cfsetospeed'):
            a = self.args(None)
            return E('', Void(), None, ('stmt', '.setSpeed %s %s' % (par(a[0].s), par(a[1].s))))
        if n == 'exit':
            a = self.args(None)
            return E('', Void(), None, ('stmt', '.exit %s' % num(a[0].c)))
        if n == 'printf':
            a = self.args(None)
            return E('', Void(), None, ('stmt', '.printf %s [%s]' % (self.pieces(a[0].lv[1]), ', '.join(x.s for x in a[1:]))))
        if n == 'puts':
            a = self.args(None)
            return E('', Void(), None, ('stmt', '.printf [.text "%s\\n"] []' % a[0].lv[1]))
        if n in ('realloc', 'memcmp', 'strlen', 'free', 'memset', 'memcpy', 'fprintf', 'fflush'):
            a = self.args(None)
            if n == 'realloc':
                return E('.realloc %s %s' % (par(a[0].s), par(a[1].s)), Ptr(Void()))
            if n == 'memcmp':
                if a[1].lv and a[1].lv[0] in ('table', 'ltable'):
                    return E('.memcmpTab %s %s %s' % (par(a[0].s), self.table(a[1]), par(a[2].s)), Int('i32'))
                return E('.memcmp %s %s %s' % (par(a[0].s), par(a[1].s), par(a[2].s)), Int('i32'))
            if n == 'strlen':
                return E('.strlen %s' % par(a[0].s), Int('u64'))
            if n == 'free':
                return E('', Void(), None, ('stmt', '.free %s' % par(a[0].s)))
            if n == 'memset' and isinstance(a[0].t, Ptr) and isinstance(a[0].t.to, Struct):
                assert a[1].c == 0 and a[2].lv == ('sizeof', a[0].t.to) and a[0].t.to.layout()[1] == 0
                return E('', Void(), None, ('stmt', '.zeroRec %s %d' % (par(a[0].s), a[0].t.to.layout()[2])))
            if n == 'memset':
                return E('', Void(), None, ('stmt', '.memset %s %s %s' % tuple(par(x.s) for x in a)))
            if n == 'memcpy':
                if a[1].lv and a[1].lv[0] in ('table', 'ltable'):
                    return E('', Void(), None, ('stmt', '.memcpyTab %s %s %s' % (par(a[0].s), self.table(a[1]), par(a[2].s))))
                return E('', Void(), None, ('stmt', '.memcpy %s %s %s' % tuple(par(x.s) for x in a)))
            vs = [x.s for x in a if not (x.lv and x.lv[0] == 'str')]
            return E('', Void(), None, ('stmt', '.print [%s]' % ', '.join(vs)))
        f = self.g.funcs[n]
        a = self.args(f)
        self.g.used.add(n)
        return E('.call .%s %s' % (n, self.pass_args(f, a)), f.res)

    def table(self, e):
        if e.lv[0] == 'table':
            return e.lv[1]
        return '[' + ', '.join(num(x) for x in e.lv[1]) + ']'

    def postfix(self):
        e = self.primary()
        while True:
            v = self.peek()
            if v in ('->', '.'):
                self.next()
                n = self.next()
                if v == '.':
                    if e.lv and e.lv[0] == 'union':
                        t = dict(e.t.members)[n]
                        e = E(e.s, t, None, e.lv[1])
                        continue
                    if e.lv and e.lv[0] == 'tabrow':
                        _, rows, k = e.lv
                        t = dict(e.t.members)[n]
                        i = [m for m, _ in e.t.members].index(n)
                        e = E('.tab .%s [%s] %s' % (t.n, ', '.join(num(r[i]) for r in rows), par(k)), t)
                        continue
                    assert e.lv and e.lv[0] == 'obj', e.lv
                    st = e.t
                elif isinstance(e.t, TabPtr):
                    t = dict(e.t.to.members)[n]
                    tab = '%s_%s' % (e.t.table, n)
                    e = E('.tab .%s %s %s' % (t.n, tab, par(e.s)) if isinstance(t, Int) else '.strTab %s %s' % (tab, par(e.s)), t)
                    continue
                else:
                    st = e.t.to
                kind, pos, t = st.layout()[0][n]
                if isinstance(t, Union):
                    e = E('.ldPtr %s %d' % (par(e.s), pos), t, None, ('union', ('slot', e.s, pos)))
                elif kind == 'p':
                    e = E('.ldPtr %s %d' % (par(e.s), pos), t, None, ('slot', e.s, pos))
                elif kind == 'f':
                    e = E('.ldFn %s %d' % (par(e.s), pos), t)
                else:
                    e = E('.ldInt .%s %s %d' % (t.n, par(e.s), pos), t, None, ('int', e.s, pos))
            elif v == '[':
                self.next()
                k = self.expr()
                self.eat(']')
                if e.lv and e.lv[0] in ('table', 'ltable'):
                    if isinstance(e.t.of, Struct):
                        e = E('', e.t.of, None, ('tabrow', e.lv[1], k.s))
                    else:
                        e = E('.tab .%s %s %s' % (e.t.of.n, self.table(e), par(k.s)), e.t.of)
                    continue
                to = e.t.of if isinstance(e.t, Arr) else e.t.to
                if isinstance(to, Int):
                    e = E('.byte .%s %s %s' % (to.n, par(e.s), par(k.s)), to, None, ('byte', e.s, k.s))
                else:
                    assert isinstance(to, Ptr)
                    e = E('.elem %s %s' % (par(e.s), par(k.s)), to, None, ('elem', e.s, k.s))
            elif v == '(':
                f = e.t.to
                a = self.args(f)
                e = E('.callPtr %s %s' % (par(e.s), self.pass_args(f, a)), f.res)
            elif v in ('++', '--'):
                self.next()
                d = 1 if v == '++' else -1
                if e.lv[0] == 'var' and isinstance(e.t, Int):
                    e = E('.incVar .%s %d %s' % (e.t.n, e.lv[1], num(d)), e.t, None, ('inc', e, d))
                elif e.lv[0] == 'var':
                    assert d == 1 and isinstance(e.t.to, Int) and sizeof(e.t.to) == 1
                    e = E('.incPtr %d' % e.lv[1], e.t, None, ('inc', e, d))
                else:
                    assert e.lv[0] == 'int' and d == 1, e.lv
                    e = E('.incMem .%s %s %d' % (e.t.n, par(e.lv[1]), e.lv[2]), e.t, None, ('inc', e, d))
            else:
                return e

    def unary(self):
        v = self.peek()
        if v == '++':
            self.next()
            e = self.unary()
            assert e.lv[0] == 'var' and isinstance(e.t, TabPtr)
            return E('.assign .i64 %d (.bin .add %s (.lit .i32 1))' % (e.lv[1], par(e.s)), e.t)
        if v == '!':
            self.next()
            e = self.unary()
            return E('.not %s' % par(e.s), Int('i32'))
        if v == '~':
            self.next()
            e = self.unary()
            if e.c is not None:
                return self.lit(promote(e.t.n), conv(promote(e.t.n), ~e.c))
            return E('.compl %s' % par(e.s), Int(promote(e.t.n)))
        if v == '-':
            self.next()
            e = self.unary()
            if e.c is not None:
                return self.lit(promote(e.t.n), -e.c)
            return E('.neg %s' % par(e.s), Int(promote(e.t.n)))
        if v == '*':
            self.next()
            e = self.unary()
            to = e.t.to
            if isinstance(to, Ptr):
                return E('.ldPtr %s 0' % par(e.s), to, None, ('slot', e.s, 0))
            if isinstance(to, Int):
                return E('.deref .%s %s' % (to.n, par(e.s)), to, None, ('deref', e.s))
            return E('', to, None, ('whole', e.s))
        if v == '&':
            self.next()
            e = self.unary()
            if e.s.startswith('.fn '):
                return e
            if e.lv[0] == 'byte':
                return E('.addr %s %s' % (par(e.lv[1]), par(e.lv[2])), Ptr(e.t))
            if e.lv[0] == 'slot':
                if e.lv[2] == 0 and e.lv[1].startswith('.var') and e.s.startswith('.ldPtr (.var') and self.is_mem(e.lv[1]):
                    return E(e.lv[1], Ptr(e.t))
                return E('.addrPtr %s %d' % (par(e.lv[1]), e.lv[2]), Ptr(e.t))
            if e.lv[0] == 'deref':
                return E(e.lv[1], Ptr(e.t))
            if e.lv[0] == 'obj':
                return E(e.s, Ptr(e.t))
            if e.lv[0] == 'var' and isinstance(e.t, Arr):
                return E(e.s, Ptr(e.t))
            raise TypeError(e.lv)
        return self.postfix()

    def is_mem(self, s):
        x = int(s.split()[1])
        return x in self.memvars

    OPS = [('||',), ('&&',), ('|',), ('^',), ('&',), ('==', '!='), ('<', '<=', '>', '>='), ('<<', '>>'), ('+', '-'), ('*', '/', '%')]
    NAMES = {'|': 'bor', '^': 'bxor', '&': 'band', '==': 'eq', '!=': 'ne', '<': 'lt', '<=': 'le', '>': 'gt', '>=': 'ge', '<<': 'shl',
             '>>': 'shr', '+': 'add', '-': 'sub', '*': 'mul', '/': 'div', '%': 'mod'}

    def binary(self, lvl=0):
        if lvl == len(self.OPS):
            return self.unary()
        a = self.binary(lvl + 1)
        while self.peek() in self.OPS[lvl]:
            op = self.next()
            b = self.binary(lvl + 1)
            a = self.mkbin(op, a, b)
        return a

    def mkbin(self, op, a, b):
        if op == '||':
            return E('.or %s %s' % (par(a.s), par(b.s)), Int('i32'))
        if op == '&&':
            return E('.and %s %s' % (par(a.s), par(b.s)), Int('i32'))
        pa, pb = isinstance(a.t, (Ptr, Union, Arr)), isinstance(b.t, (Ptr, Union, Arr))
        if op in ('==', '!=') and (pa or pb):
            return E('.bin .%s %s %s' % (self.NAMES[op], par(self.ptr_arg(a)), par(self.ptr_arg(b))), Int('i32'))
        if isinstance(a.t, Dbl) or isinstance(b.t, Dbl):
            assert op == '*'
            return E('.mulDbl %s %s' % (par(self.dbl(a)), par(self.dbl(b))), Dbl())
        if pa:
            assert op in '+-' and sizeof(a.t.to) == 1
            k = b.s if op == '+' else '.neg ' + par(b.s)
            return E('.addr %s %s' % (par(a.s), par(k)), a.t)
        if op in ('==', '!=', '<', '<=', '>', '>='):
            t = 'i32'
        elif op in ('<<', '>>'):
            t = promote(a.t.n)
        else:
            t = usual(a.t.n, b.t.n)
        if a.c is not None and b.c is not None and op in ('<<', '+', '-', '*', '|', '&', '/'):
            u = usual(a.t.n, b.t.n)
            x, y = conv(u, a.c), conv(u, b.c)
            if op == '<<':
                return self.lit(t, conv(t, a.c << b.c))
            f = {'+': lambda: x + y, '-': lambda: x - y, '*': lambda: x * y, '|': lambda: x | y, '&': lambda: x & y, '/': lambda: x // y}[op]
            return self.lit(t, conv(t, f()))
        return E('.bin .%s %s %s' % (self.NAMES[op], par(a.s), par(b.s)), Int(t))

    def assign_expr(self):
        c = self.binary()
        if self.opt('?'):
            a = self.assign_expr()
            self.eat(':')
            b = self.assign_expr()
            t = a.t if isinstance(a.t, Ptr) else Int(usual(a.t.n, b.t.n))
            return E('.cond %s %s %s' % (par(c.s), par(a.s), par(b.s)), t)
        return c

    def expr(self):
        return self.assign_expr()

    # -- statements: lists of lines of Lean text
    def store(self, lv, t, v):
        """The assignment of an expression to an lvalue."""
        if isinstance(t, Ptr):
            s = self.ptr_arg(v)
            if lv[0] == 'var':
                return '.setPtr %d %s' % (lv[1], par(s))
            if lv[0] == 'slot':
                return '.stPtr %s %d %s' % (par(lv[1]), lv[2], par(s))
            if lv[0] == 'elem':
                return '.stElem %s %s %s' % (par(lv[1]), par(lv[2]), par(s))
        if isinstance(t, Dbl):
            return '.setPtr %d %s' % (lv[1], par(self.dbl(v)))
        if isinstance(t, Int):
            if lv[0] == 'var':
                return '.set .%s %d %s' % (t.n, lv[1], par(v.s))
            if lv[0] == 'int':
                return '.stInt .%s %s %d %s' % (t.n, par(lv[1]), lv[2], par(v.s))
            if lv[0] == 'byte':
                return '.stByte .%s %s %s %s' % (t.n, par(lv[1]), par(lv[2]), par(v.s))
            if lv[0] == 'flag':
                return '.setFlag %d %s' % (lv[1], par(v.s))
            if lv[0] == 'deref':
                return '.stDeref .%s %s %s' % (t.n, par(lv[1]), par(v.s))
        raise TypeError(lv, t)

    def expr_stmt(self):
        """An expression used as a statement (also in the head of a for loop)."""
        e = self.expr()
        v = self.peek()
        if v == '=':
            self.next()
            r = self.expr()
            if e.lv[0] == 'whole':
                st, vals = e.t, r.lv[1]
                ps, ns = [], []
                lay = st.layout()[0]
                for n, _ in st.members:
                    kind, pos, t = lay[n]
                    w = vals.get(n)
                    if kind == 'p':
                        ps.append(self.ptr_arg(w[0]) if w else '.null')
                    else:
                        tt = t.n if kind == 'i' else 'u64'
                        ns.append('(.%s, %s)' % (tt, w[0].s if w else '.lit .i32 0'))
                return '.stRec %s [%s] [%s]' % (par(e.lv[1]), ', '.join(ps), ', '.join(ns))
            return self.store(e.lv, e.t, r)
        if v in ('+=', '-=', '|=', '&=', '^=', '<<=', '>>='):
            self.next()
            r = self.expr()
            b = self.mkbin(v[:-1], e, r)
            return self.store(e.lv, e.t, b)
        if e.lv and e.lv[0] == 'inc':
            _, x, d = e.lv
            if isinstance(x.t, Int):
                return self.store(x.lv, x.t, self.mkbin('+' if d > 0 else '-', x, self.lit('i32', 1)))
        if e.lv and e.lv[0] == 'stmt':
            return e.lv[1]
        return '.expr %s' % par(e.s)

    def local_decl(self, ind):
        out = []
        b = self.base_type()
        static = False
        while True:
            line = self.tok().line
            n, t = self.declarator(b)
            if isinstance(t, Arr):
                if self.opt('='):
                    tab = self.initializer(t)
                    self.scopes[-1][n] = ('table', tab, Arr(t.of, len(tab)))
                else:
                    k = t.n
                    t.n = k.c
                    x = self.declare(n, t)
                    out.append((line, '.bytes %d %s' % (x, par(k.s))))
            elif isinstance(t, FdSet) or isinstance(t, Struct) and self.peek() != '=':
                x = self.declare(n, t)
                self.memvars.add(x)
                self.scopes[-1][n] = ('mem', x, t)
                out.append((line, '.fdVar %d' % x))
            elif isinstance(t, Struct):
                self.eat('=')
                self.eat('{')
                self.eat('0')
                self.eat('}')
                x = self.declare(n, t)
                self.memvars.add(x)
                self.scopes[-1][n] = ('mem', x, t)
                _, np, ni = t.layout()
                out.append((line, '.obj %d [%s] [%s]' % (x, ', '.join(['.null'] * np), ', '.join(['0'] * ni))))
            else:
                x = self.declare(n, t)
                init = None
                taken = n in self.addr_taken
                if taken:
                    self.memvars.add(x)
                    self.scopes[-1][n] = ('mem', x, t)
                if self.opt('='):
                    init = self.expr()
                if init and init.lv and init.lv[0] == 'stable':
                    self.scopes[-1][n] = ('var', x, TabPtr(init.lv[1], t.to))
                    out.append((line, '.set .i64 %d (.lit .i32 0)' % x))
                elif taken:
                    if isinstance(t, Ptr) and init is None:
                        out.append((line, '.ptrVar %d' % x))
                    elif isinstance(t, Ptr):
                        out.append((line, '.obj %d [%s] []' % (x, self.ptr_arg(init))))
                    else:
                        out.append((line, '.bytes %d (.lit .u64 %d)' % (x, sizeof(t))))
                        if init:
                            out.append((line, '.stDeref .%s (.var %d) %s' % (t.n, x, par(init.s))))
                elif init:
                    out.append((line, self.store(('var', x, t), t, init)))
            if not self.opt(','):
                break
        self.eat(';')
        return out

    def initializer(self, t):
        if self.tok().k == 'str':
            s = self.next()[1:-1]
            return [ord(c) for c in s] + [0]
        self.eat('{')
        vals = []
        while not self.opt('}'):
            if isinstance(t.of, Struct):
                self.eat('{')
                row = {}
                if self.peek() != '.':
                    vals.append([])
                    while not self.opt('}'):
                        e = self.expr()
                        vals[-1].append(e.c if isinstance(e.t, Int) else e.lv[1])
                        self.opt(',')
                    self.opt(',')
                    continue
                while not self.opt('}'):
                    self.eat('.')
                    m = self.next()
                    self.eat('=')
                    row[m] = self.expr().c
                    self.opt(',')
                vals.append([row[m] for m, _ in t.of.members])
            else:
                vals.append(self.expr().c)
            self.opt(',')
        return vals

    def block(self, ind):
        """A statement or a block as a list of (line, text)."""
        if self.opt('{'):
            self.scopes.append({})
            out = []
            while not self.opt('}'):
                out += self.stmt(ind)
            self.scopes.pop()
            return out
        return self.stmt(ind)

    def fmt(self, ss, ind):
        if not ss:
            return '[]'
        pad = '  ' * ind
        out = []
        for i, (line, s) in enumerate(ss):
            out.append(pad + s + (',' if i < len(ss) - 1 else ''))
        return '[\n' + '\n'.join(out) + ']'

    def stmt(self, ind):
        line = self.tok().line
        v = self.peek()
        if v == '{':
            return self.block(ind)
        if v == ';':
            self.next()
            return []
        if v == 'if':
            self.next()
            self.eat('(')
            c = self.expr()
            self.eat(')')
            a = self.block(ind + 1)
            b = []
            if self.opt('else'):
                b = self.block(ind + 1)
            return [(line, '.ite %s %s %s' % (par(c.s), self.fmt(a, ind + 1), self.fmt(b, ind + 1)))]
        if v == 'while':
            self.next()
            self.eat('(')
            c = self.expr()
            self.eat(')')
            a = self.block(ind + 1)
            return [(line, '.loop %s %s []' % (par(c.s), self.fmt(a, ind + 1)))]
        if v == 'do':
            self.next()
            a = self.block(ind + 1)
            self.eat('while')
            self.eat('(')
            c = self.expr()
            self.eat(')')
            self.eat(';')
            return [(line, '.doWhile %s %s' % (self.fmt(a, ind + 1), par(c.s)))]
        if v == 'for':
            self.next()
            self.eat('(')
            self.scopes.append({})
            out = []
            if self.peek() == ';':
                self.next()
            elif self.is_type():
                out = self.local_decl(ind)
            else:
                out = [(line, self.expr_stmt())]
                self.eat(';')
            c = E('.lit .i32 1', Int('i32')) if self.peek() == ';' else self.expr()
            self.eat(';')
            step = [] if self.peek() == ')' else [(line, self.expr_stmt())]
            self.eat(')')
            a = self.block(ind + 1)
            self.scopes.pop()
            return out + [(line, '.loop %s %s %s' % (par(c.s), self.fmt(a, ind + 1), self.fmt(step, ind + 1)))]
        if v == 'switch':
            self.next()
            self.eat('(')
            c = self.expr()
            self.eat(')')
            a = self.block(ind + 1)
            return [(line, '.switch %s %s' % (par(c.s), self.fmt(a, ind + 1)))]
        if v == 'case':
            self.next()
            e = self.expr()
            self.eat(':')
            return [(line, '.case %s' % num(e.c))]
        if v == 'default':
            self.next()
            self.eat(':')
            return [(line, '.dflt')]
        if v == 'break':
            self.next()
            self.eat(';')
            return [(line, '.brk')]
        if v == 'continue':
            self.next()
            self.eat(';')
            return [(line, '.cont')]
        if v == 'goto':
            self.next()
            l = self.next()
            self.eat(';')
            return [(line, '.goto %d' % self.label(l))]
        if v == 'return':
            self.next()
            if self.opt(';'):
                return [(line, '.retVoid')]
            e = self.expr()
            self.eat(';')
            if isinstance(self.res, Dbl):
                return [(line, '.ret %s' % par(self.dbl(e)))]
            return [(line, '.ret %s' % par(self.ptr_arg(e) if isinstance(self.res, Ptr) else e.s))]
        if self.tok().k == 'id' and self.peek(1) == ':':
            l = self.next()
            self.next()
            return [(line, '.label %d' % self.label(l))]
        if self.is_type():
            return self.local_decl(ind)
        s = self.expr_stmt()
        self.eat(';')
        return [(line, s)]

    def label(self, l):
        if l not in self.labels:
            self.labels.append(l)
        return self.labels.index(l)

    # -- top level
    def top(self):
        while self.i < len(self.t):
            if self.opt(';'):
                continue
            start = self.tok()
            td = self.opt('typedef')
            static = self.peek() == 'static'
            b = self.base_type()
            if self.opt(';'):
                continue
            n, t = self.declarator(b)
            if td:
                if isinstance(t, Struct) and t.name is None:
                    t.name = n
                self.g.typedefs[n] = t
                self.eat(';')
            elif isinstance(t, Func):
                self.g.funcs[n] = t
                if self.opt(';'):
                    continue
                self.function(n, t, start)
            elif isinstance(t, Arr):
                self.eat('=')
                self.g.tables[n] = (t.of if isinstance(t.of, Struct) else t.of.n, self.initializer(t))
                self.g.out.append(('table', n, start))
                self.eat(';')
            elif t == Int('i32') and self.opt('='):
                assert self.expr().c == 0
                self.g.globals.append(n)
                self.eat(';')
            else:
                raise SyntaxError(n)

    def function(self, n, t, start):
        assert self.peek() == '{'
        # find the end of the body, and the names whose address is taken
        d, j = 0, self.i
        while True:
            d += self.t[j].v == '{'
            d -= self.t[j].v == '}'
            j += 1
            if d == 0:
                break
        body = self.t[self.i:j]
        self.addr_taken = set()
        for k in range(len(body) - 2):
            if body[k].v == '&' and body[k + 1].k == 'id' and body[k + 2].v in (';', ',', ')') \
                    and not (body[k - 1].k in ('id', 'num') or body[k - 1].v == ')' and body[k - 2].v != '*'):
                self.addr_taken.add(body[k + 1].v)
        self.nvars, self.names, self.labels, self.memvars, self.res = 0, [], [], set(), t.res
        self.scopes = [{}]
        pre = []
        for pn, pt in t.params:
            x = self.declare(pn, pt)
        for pn, pt in t.params:
            if pn in self.addr_taken:
                x = self.lookup(pn)[1]
                y = self.declare(pn, pt)
                self.memvars.add(y)
                self.scopes[-1][pn] = ('mem', y, pt)
                pre += [(start.line, '.bytes %d (.lit .u64 %d)' % (y, sizeof(pt))), (start.line, '.stDeref .%s (.var %d) (.var %d)' % (pt.n, y, x))]
        end = self.t[j - 1].line
        ss = pre + self.block(2)
        ps = ', '.join('some .%s' % p.n if isinstance(p, Int) else 'none' for _, p in t.params)
        res = 'some .%s' % t.res.n if isinstance(t.res, Int) else 'none'
        self.g.out.append(('fun', n, start, end, ps, res, self.fmt(ss, 2), list(self.names), list(self.labels)))


def conv(t, n):
    if t == 'bool':
        return int(n != 0)
    m = 1 << BITS[t]
    n %= m
    if t[0] == 'i' and n >= m // 2:
        n -= m
    return n


class Glob:
    def __init__(self):
        self.typedefs = {'fd_set': FdSet(), 'uuid_t': Arr(Int('u8'), E('.lit .u64 16', Int('u64'), 16))}
        self.structs, self.funcs, self.tables, self.out, self.used = {}, {}, {}, [], set()
        self.globals = []
        t = self.structs['termios'] = Struct('termios')
        t.members = [('c_%sflag' % c, Int('u32')) for c in 'iocl'] + [('c_cc[%d]' % i, Int('u8')) for i in range(32)]


def main():
    repo, dst = sys.argv[1], sys.argv[2]
    src = os.path.join(repo, 'sml/src')
    mods, allfuns, used, taken, types = [], [], set(), set(), {}
    for path in ['sml/src/' + f for f in sorted(os.listdir(src))] + ['examples/sml_server.c', 'test/src/fuzzer.c']:
        f = os.path.basename(path)
        g = Glob()
        toks = Pre(repo).file(os.path.join(repo, path))
        for t in toks:
            if t.k == 'id' and t.v in TWICE:      # static functions of two files
                t.v += f[4:-2].split('_')[0]
        p = Parser(toks, g)
        p.top()
        if not any(o[0] == 'fun' for o in g.out):
            continue
        used |= g.used
        mod = {'s': '', 'e': 'Example', 't': 'Test'}[path[0]] + ''.join(w.capitalize() for w in f[:-2].removeprefix('sml_').split('_'))
        o = ['import Verif.Source.Lang', '', '/-!', '# `%s`' % path, '', 'Written by `tools/c2lean.py`.', '-/', '', 'namespace Sml.C', '']
        for x in g.out:
            if x[0] == 'table':
                ty, vs = g.tables[x[1]]
                if isinstance(ty, Struct):
                    for i, (m, t) in enumerate(ty.members):
                        o += ['/-- The members `%s` of `%s` (%s:%d). -/' % (m, x[1], x[2].file, x[2].line),
                              'def %s_%s : List %s := [' % (x[1], m, 'Int' if isinstance(t, Int) else 'String')]
                        col = [num(v[i]) if isinstance(t, Int) else '"%s"' % v[i] for v in vs]
                        rows = [col[j:j + 12] for j in range(0, len(col), 12)]
                        o += [',\n'.join('  ' + ', '.join(r) for r in rows) + ']', '']
                    continue
                o += ['/-- `%s` (sml/src/%s:%d). -/' % (x[1], f, x[2].line), 'def %s : List Int := [' % x[1]]
                rows = [vs[i:i + 12] for i in range(0, len(vs), 12)]
                o += [',\n'.join('  ' + ', '.join(num(v) for v in r) for r in rows) + ']', '']
                continue
            _, n, st, end, ps, res, body, names, labels = x
            allfuns.append(n)
            taken |= set(re.findall(r'\.fn \.(\w+)', body))
            types[n] = name_of(g.funcs[n])
            text = open(os.path.join(repo, st.file)).read().split('\n')
            cite = '%s:%d' % (st.file, st.line) if st.line == end else '%s:%d-%d' % (st.file, st.line, end)
            o += ['/-- `%s` (%s).' % (n, cite), '```']
            o += [l.replace('\t', '  ').replace('-/', '- /') for l in text[st.line - 1:end]]
            o += ['```']
            if names:
                o += ['Variables: ' + ', '.join('%d `%s`' % (i, m) for i, m in names) + '.' +
                      (' Labels: ' + ', '.join('%d `%s`' % (i, l) for i, l in enumerate(labels)) + '.' if labels else '')]
            o[-1] += ' -/'
            o += ['def %s : FunDef where' % n, '  params := [%s]' % ps, '  res := %s' % res, '  body := %s' % body, '']
        o += ['end Sml.C', '']
        open(os.path.join(dst, mod + '.lean'), 'w').write('\n'.join(o))
        mods.append(mod)
    dup = {n for n in allfuns if allfuns.count(n) > 1}
    assert not dup, dup
    miss = used - set(allfuns)
    print('called but left out:', miss)
    o = ['/-!', '# The functions of the library', '', 'Written by `tools/c2lean.py`.', '-/', '', 'namespace Sml.C', '',
         '/-- Names of the functions. -/', 'inductive Fn where']
    o += ['  | %s' % n for n in allfuns] + ['deriving DecidableEq, Repr', '']
    o += ['/-- All names. -/', 'def Fn.all : List Fn := [', ',\n'.join('  .' + n for n in allfuns) + ']', '',
          '/-- The number of a function, which is what a pointer to it holds. -/', 'def Fn.code (f : Fn) : Nat := f.ctorIdx', '',
          'def Fn.ofCode (n : Nat) : Option Fn := Fn.all[n]?', '', '/-- Has the function one of the types of the functions that are called through a pointer? -/', 'def Fn.byPtr : Fn → Bool']
    o += ['  | .%s => true' % n for n in allfuns if types[n] in {types[m] for m in taken}] + ['  | _ => false', '', 'end Sml.C', '']
    open(os.path.join(dst, 'Names.lean'), 'w').write('\n'.join(o))
    o = ['import Verif.Source.%s' % m for m in mods]
    o += ['', '/-!', '# The program', '', 'Written by `tools/c2lean.py`.', '-/', '', 'namespace Sml.C', '',
          '/-- The definition of each function. -/', 'def program : Fn → FunDef']
    o += ['  | .%s => %s' % (n, n) for n in allfuns] + ['', 'end Sml.C', '']
    open(os.path.join(dst, 'Program.lean'), 'w').write('\n'.join(o))


main()
