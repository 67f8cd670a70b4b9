#!/usr/bin/env python3
"""Translate the C files of /repo into the language of Verif/Model/Leak/IR.lean, with a certificate for the checker of
Verif/Proofs/Leak/Check.lean.

usage: c2leak.py REPO OUTDIR

There are six builds: Keccak with words of 64 or of 32 bits, on a little-endian or a big-endian host; the AVX2 code for
four states; and field elements as vectors of the compiler.  The first one is translated to Model/Leak/Prog*; of the others only the functions which differ are
written.

The preprocessor is the one of c2hash.py; the parser here knows the declarations of the headers (typedef, struct,
enum), so nothing but the standard headers is predefined.  The functions reachable from ENTRIES are translated.  The
certificate (types of variables) is found by an analysis whose result is checked in Lean; nothing depends on it being
right.  The translation is described in DESIGN.md ("Branches and addresses").
"""
import os
import pickle
import re
import subprocess
import sys
sys.path.insert(0, os.path.dirname(os.path.abspath(__file__)))
import c2lean
import c2hash
from c2lean import tokenize, strip_comments

REPO, OUT = (sys.argv + ['', ''])[1:3]
# name -> directory of the Keccak code, whether the host is big-endian
BUILDS = {'Prog': ('opt64', False), 'Prog32': ('plain32', False), 'ProgBe': ('opt64', True), 'Prog32Be': ('plain32', True),
          'ProgAvx': ('avx2', False), 'ProgVec': ('opt64', False)}
NAME, STATE = sys.argv[3:5] if len(sys.argv) > 4 else ('Prog', '')
SHA3, BE = BUILDS[NAME]
CERT = {'Prog': 'Cert', 'Prog32': 'Cert32', 'ProgBe': 'CertBe', 'Prog32Be': 'Cert32Be', 'ProgAvx': 'CertAvx', 'ProgVec': 'CertVec'}[NAME]
sys.setrecursionlimit(100000)

# ---------------------------------------------------------------- preprocessor

c2hash.IGNORE.clear()
SYSTEM = {'stdint.h', 'string.h', 'stdlib.h', 'stddef.h', 'stdio.h', 'stdbool.h', 'assert.h', 'limits.h', 'config.h',
          'errno.h', 'immintrin.h', 'smmintrin.h', 'wmmintrin.h', 'emmintrin.h',
          'align.h', 'endian_compat.h', 'parameters.h', 'brg_endian.h', 'displayIntermediateValues.h'}
STD = {'NULL': '((void*)0)', 'true': '1', 'false': '0', 'CHAR_BIT': '8', 'FAEST_IS_LITTLE_ENDIAN': '',
       'FAEST_CALLING_CONVENTION': '', 'HAVE_ALIGNED_ALLOC': '', 'IS_LITTLE_ENDIAN': '1234', 'PLATFORM_BYTE_ORDER': '1234'}
STDF = {'UINT64_C': (['x'], '((uint64_t)(x))'), 'UINT8_C': (['x'], '(x)'), 'ALIGN': (['x'], ''),
        'htole64': (['x'], '(x)'), 'HTOLE64': (['x'], '(x)'), 'le64toh': (['x'], '(x)'), 'htole16': (['x'], '(x)')}
VECTORS = NAME == 'ProgVec'
if VECTORS:
    STD.update({'has_attribute_vector_size': '1', 'has_builtin___builtin_shufflevector': '1'})
    STDF.update({'__has_attribute': (['a'], 'has_attribute_##a'), '__has_builtin': (['b'], 'has_builtin_##b')})
if BE:
    del STD['FAEST_IS_LITTLE_ENDIAN']
    STD.update({'FAEST_IS_BIG_ENDIAN': '', 'PLATFORM_BYTE_ORDER': '4321'})
    for _m in ('htole64', 'HTOLE64', 'le64toh', 'htole16'):
        STDF[_m] = (['x'], 'bswap%s(x)' % _m.replace('toh', '')[-2:])


class CPP(c2hash.CPP):
    def __init__(self, dirs, defined, subst):
        super().__init__(dirs, {})
        self.m = {k: (None, tokenize(v)) for k, v in STD.items()}
        for k, (ps, v) in STDF.items():
            self.m[k] = (ps, tokenize(v))
        for k in defined:
            self.m[k] = (None, [])
        for k, v in c2lean.CONSTS.items():
            self.m[k] = (None, tokenize(str(v)))
        self.tmpl = subst

    def cond(self, e):
        # defined before expansion, also inside macros used in conditions
        e = re.sub(r'\b(\d+)[uUlL]+\b', r'\1', e)
        return super().cond(e)

    def include(self, name, path):
        if os.path.basename(name) in SYSTEM and not (name == 'config.h' and 'sha3' in path):
            return
        if self.tmpl and name == 'faest_%s.h' % self.tmpl['PARAM_L']:
            self.run(os.path.join(REPO, 'faest_param.h.in'))
            return
        super().include(name, path)

    def run(self, path):
        if path.endswith('.in'):
            text = open(path).read()
            tmp = re.sub(r'@(\w+)@', lambda m: self.tmpl[m.group(1)], text)
            self.text = {path: tmp}
        super().run(path)


_open = open


def patched_open(p, *a):
    """templates are read with their values"""
    if CUR is not None and isinstance(p, str) and p.endswith('.in') and not a:
        import io
        return io.StringIO(re.sub(r'@(\w+)@', lambda m: CUR[m.group(1)], _open(p).read()))
    return _open(p, *a)


CUR = None
c2hash.open = patched_open
c2hash.REPO = REPO
c2hash.C.REPO = REPO

# ---------------------------------------------------------------- declarations

INTS = {'uint8_t': 'u8', 'uint16_t': 'u16', 'uint32_t': 'u32', 'uint64_t': 'u64', 'size_t': 'u64', 'uintptr_t': 'u64',
        'bool': 'bool', '_Bool': 'bool', 'void': 'void', 'int': 'i32', 'char': 'u8', '__m256i': 'v256', '__m128i': 'v128'}
LANES = {'q2': 2, 'q4': 4}              # vectors of 64-bit words
SIZE = {'v256': 32, 'v128': 16, 'q2': 16, 'q4': 32, 'u8': 1, 'u16': 2, 'u32': 4, 'u64': 8, 'i32': 4, 'bool': 1, 'void': 1}
TYPEDEFS, STRUCTS, ENUMS, GLOBALS, FUNCS = {}, {}, {}, {}, {}
WORDS = {'const', 'static', 'inline', 'volatile', 'register', 'extern', 'restrict'}
BASEW = {'unsigned', 'signed', 'long', 'short', 'int', 'char', 'struct', 'enum'}


def is_rec(t):
    """a structure kept as a record of cells: it holds pointers, or numbers some of which are secret"""
    return t[0] == 'st' and (t[1] in FORCE_REC or any(m[0] == 'ptr' or is_rec(m) for _, m in STRUCTS[t[1]]))


FORCE_REC = {'KeccakWidth1600_SpongeInstance', 'KeccakWidth1600times4_SpongeInstance'}


def sizeof(t):
    if isinstance(t, str):
        return SIZE[t]
    if t[0] == 'ptr':
        return 8
    if t[0] == 'arr':
        return t[2] * sizeof(t[1])
    o = 0
    for _, m in STRUCTS[t[1]]:
        o = -(-o // align(m)) * align(m) + sizeof(m)
    return -(-o // align(t)) * align(t)


def align(t):
    if isinstance(t, str):
        return SIZE[t]
    if t[0] == 'ptr':
        return 8
    if t[0] == 'arr':
        return align(t[1])
    return max(align(m) for _, m in STRUCTS[t[1]])


def offset(t, f):
    o = 0
    for n, m in STRUCTS[t[1]]:
        o = -(-o // align(m)) * align(m)
        if n == f:
            return o, m
        o += sizeof(m)
    raise KeyError(f)


def is_bytes(t):
    if isinstance(t, str):
        return True
    if t[0] == 'ptr':
        return False
    if t[0] == 'arr':
        return is_bytes(t[1])
    return not is_rec(t)


def cells(t):
    """cells of an element of type t"""
    if is_bytes(t):
        return sizeof(t)
    if t[0] == 'ptr':
        return 1
    assert is_rec(t), t
    return len(STRUCTS[t[1]])


def is_int(t):
    return isinstance(t, str) and t != 'void'


INITS = {}               # bytes of the initialised global objects (only used to test the translation)


def initial(t, e):
    if t in LANES:
        return b''.join(initial('u64', x) for x in e[1])
    if isinstance(t, str):
        return (const(e) % 256 ** sizeof(t)).to_bytes(sizeof(t), 'big' if BE else 'little')
    ts = [t[1]] * t[2] if t[0] == 'arr' else [m for _, m in STRUCTS[t[1]]]
    b = b''.join(initial(m, x) for m, x in zip(ts, e[1]))
    return b + bytes(sizeof(t) - len(b))


class Parser:
    def __init__(self, toks):
        self.t, self.i = toks, 0

    def peek(self, k=0):
        return self.t[self.i + k][1] if self.i + k < len(self.t) else None

    def kind(self, k=0):
        return self.t[self.i + k][0] if self.i + k < len(self.t) else None

    def line(self):
        return self.t[min(self.i, len(self.t) - 1)][2]

    def next(self):
        self.i += 1
        return self.t[self.i - 1][1]

    def eat(self, v):
        if self.peek() == v:
            self.i += 1
            return True
        return False

    def need(self, v):
        if not self.eat(v):
            ln = self.line()
            raise SyntaxError('%s:%d: expected %r, got %r' % (ln.f, ln, v, self.peek()))

    # ---- types
    def is_type(self, k=0):
        p = self.peek(k)
        return self.kind(k) == 'id' and (p in WORDS or p in BASEW or p in INTS or p in TYPEDEFS)

    def base_type(self):
        t, ws = None, []
        while True:
            p = self.peek()
            if p in WORDS:
                self.next()
            elif p == 'struct':
                self.next()
                tag = self.next() if self.kind() == 'id' else None
                if self.eat('{'):
                    ms = []
                    while not self.eat('}'):
                        b = self.base_type()
                        while True:
                            mt, n = self.declarator(b)
                            ms.append((n, mt))
                            if not self.eat(','):
                                break
                        self.need(';')
                    tag = tag or '@%d' % self.i
                    t = ('st', tag)
                    STRUCTS[tag] = ms
                else:
                    t = ('st', tag)
            elif p == 'enum':
                self.next()
                if self.kind() == 'id':
                    self.next()
                if self.eat('{'):
                    v = 0
                    while not self.eat('}'):
                        n = self.next()
                        if self.eat('='):
                            v = const(self.ternary())
                        ENUMS[n] = v
                        v += 1
                        self.eat(',')
                t = 'i32'
            elif p in ('unsigned', 'signed', 'long', 'short', 'int', 'char') and t is None:
                ws.append(self.next())
            elif t is None and not ws and p in INTS:
                self.next()
                t = INTS[p]
            elif t is None and not ws and p in TYPEDEFS:
                self.next()
                t = TYPEDEFS[p]
            else:
                break
        if ws:
            u = 'unsigned' in ws
            if 'char' in ws:
                t = 'u8'
            elif 'short' in ws:
                assert u
                t = 'u16'
            elif 'long' in ws:
                t = 'u64'
                assert u
            else:
                t = 'u32' if u else 'i32'
        assert t is not None, (self.peek(), self.line().f, self.line())
        return t

    def declarator(self, t):
        while True:
            if self.eat('*'):
                t = ('ptr', t)
            elif self.peek() in WORDS:
                self.next()
            else:
                break
        n = self.next() if self.kind() == 'id' else None
        return self.suffix(t), n

    def suffix(self, t):
        dims = []
        while self.eat('['):
            dims.append(None if self.peek() == ']' else self.ternary())
            self.need(']')
        for d in reversed(dims):
            t = ('arr', t, None if d is None else const(d))
        return t

    def type_name(self):
        t, _ = self.declarator(self.base_type())
        return t

    # ---- top level
    def unit(self):
        while self.i < len(self.t):
            if self.eat(';'):
                continue
            if self.peek() in ('static_assert', '_Static_assert'):
                while self.next() != ';':
                    pass
                continue
            if self.eat('typedef'):
                b = self.base_type()
                t, n = self.declarator(b)
                if self.eat('__attribute__'):
                    for x in ('(', '(', 'vector_size', '('):
                        self.need(x)
                    t = {16: 'q2', 32: 'q4'}[const(self.ternary())]
                    for x in (')', ')', ')'):
                        self.need(x)
                if t[0] == 'st' and t[1][0] in '@' or (t[0] == 'st' and t[1] not in TYPEDEFS and t == b):
                    STRUCTS[n] = STRUCTS[t[1]]
                    t = ('st', n)
                TYPEDEFS[n] = t
                self.need(';')
                continue
            line = self.line()
            b = self.base_type()
            if self.eat(';'):
                continue
            t, n = self.declarator(b)
            if self.eat('('):
                ps = []
                while not self.eat(')'):
                    if self.peek() == 'void' and self.peek(1) == ')':
                        self.next()
                        continue
                    pt, pn = self.declarator(self.base_type())
                    if pt[0] == 'arr':
                        pt = ('ptr', pt[1])
                    ps.append((pn, pt))
                    self.eat(',')
                while self.kind() == 'id' and self.peek().startswith('ATTR'):
                    raise SyntaxError('attribute')
                if self.peek() == '{':
                    body = self.block()
                    end = self.t[self.i - 1][2]
                    f = (t, ps, body, line, end)
                    if n in FUNCS and (FUNCS[n][3].f, int(FUNCS[n][3])) != (line.f, int(line)):
                        raise SyntaxError('two functions %s' % n)
                    FUNCS[n] = f
                else:
                    self.need(';')
                continue
            while True:
                init = self.initializer() if self.eat('=') else None
                if t[0] == 'arr' and t[2] is None:
                    t = ('arr', t[1], len(init[1]) if init else 0)
                if init:
                    INITS[n] = initial(t, init)
                GLOBALS[n] = (t, line)
                if not self.eat(','):
                    break
                t, n = self.declarator(b)
            self.need(';')

    def initializer(self):
        if self.eat('{'):
            vs = []
            while not self.eat('}'):
                vs.append(self.initializer())
                self.eat(',')
            return ('list', vs)
        return self.assign()

    # ---- statements
    def block(self):
        self.need('{')
        out = []
        while not self.eat('}'):
            out += self.stmt()
        return out

    def body(self):
        return self.block() if self.peek() == '{' else self.stmt()

    def decl(self):
        b = self.base_type()
        out = []
        while True:
            ln = self.line()
            t, n = self.declarator(b)
            init = self.initializer() if self.eat('=') else None
            out.append(('decl', n, t, init, ln))
            if not self.eat(','):
                return out

    def stmt(self):
        p = self.peek()
        if p == '{':
            return [('block', self.block())]
        if self.eat(';'):
            return []
        if p in ('static_assert', '_Static_assert'):
            while self.next() != ';':
                pass
            return []
        if self.eat('if'):
            self.need('(')
            c = self.expr()
            self.need(')')
            a = self.body()
            b = self.body() if self.eat('else') else []
            return [('if', c, a, b)]
        if self.eat('for'):
            self.need('(')
            init = []
            if self.is_type():
                init = self.decl()
            elif self.peek() != ';':
                init = [('expr', self.expr())]
            self.need(';')
            c = self.expr() if self.peek() != ';' else ('num', 1, 'i32')
            self.need(';')
            step = [('expr', self.expr())] if self.peek() != ')' else []
            self.need(')')
            return [('block', init + [('loop', c, self.body(), step)])]
        if self.eat('while'):
            self.need('(')
            c = self.expr()
            self.need(')')
            return [('loop', c, self.body(), [])]
        if self.eat('do'):
            b = self.body()
            self.need('while')
            self.need('(')
            c = self.expr()
            self.need(')')
            self.need(';')
            if c == ('num', 0, 'i32'):
                return [('block', b)]
            return [('loop', ('num', 1, 'i32'), b + [('if', ('un', '!', c), [('break',)], [])], [])]
        if self.eat('switch'):
            self.need('(')
            e = self.expr()
            self.need(')')
            self.need('{')
            cases, labels, cur = [], [], None
            while not self.eat('}'):
                if self.peek() in ('case', 'default'):
                    if cur is not None:
                        cases.append((labels, cur))
                        labels, cur = [], None
                    labels.append(const(self.ternary()) if self.next() == 'case' else None)
                    self.need(':')
                else:
                    cur = (cur or []) + self.stmt()
            cases.append((labels, cur or []))
            return [('switch', e, cases)]
        if self.eat('return'):
            e = None if self.peek() == ';' else self.expr()
            self.need(';')
            return [('return', e)]
        if p in ('break', 'continue'):
            self.next()
            self.need(';')
            return [(p,)]
        if self.is_type():
            d = self.decl()
            self.need(';')
            return d
        e = self.expr()
        self.need(';')
        return [('expr', e)]

    # ---- expressions
    def expr(self):
        e = self.assign()
        while self.eat(','):
            e = ('comma', e, self.assign())
        return e

    def assign(self):
        l = self.ternary()
        p = self.peek()
        if p == '=':
            self.next()
            return ('assign', l, self.assign())
        if p in ('+=', '-=', '*=', '/=', '%=', '&=', '|=', '^=', '<<=', '>>='):
            self.next()
            return ('opassign', p[:-1], l, self.assign())
        return l

    def ternary(self):
        c = self.binary(0)
        if self.eat('?'):
            a = self.expr()
            self.need(':')
            return ('cond', c, a, self.ternary())
        return c

    PREC = [['||'], ['&&'], ['|'], ['^'], ['&'], ['==', '!='], ['<', '>', '<=', '>='], ['<<', '>>'], ['+', '-'],
            ['*', '/', '%']]

    def binary(self, lv):
        if lv == len(self.PREC):
            return self.unary()
        l = self.binary(lv + 1)
        while self.kind() == 'op' and self.peek() in self.PREC[lv]:
            op = self.next()
            l = ('bin', op, l, self.binary(lv + 1))
        return l

    def unary(self):
        p = self.peek()
        if self.kind() == 'op':
            if p in ('-', '~', '!', '*', '&', '+'):
                self.next()
                return ('un', p, self.unary())
            if p in ('++', '--'):
                self.next()
                return ('opassign', p[0], self.unary(), ('num', 1, 'i32'))
            if p == '(' and self.is_type(1):
                self.next()
                t = self.type_name()
                self.need(')')
                if self.peek() == '{':
                    return ('literal', t, self.initializer())
                return ('cast', t, self.unary())
        if p == 'sizeof':
            self.next()
            if self.peek() == '(' and self.is_type(1):
                self.next()
                t = self.type_name()
                self.need(')')
                return ('sizeof_t', t)
            return ('sizeof_e', self.unary())
        return self.postfix()

    def postfix(self):
        e = self.primary()
        while True:
            if self.eat('['):
                i = self.expr()
                self.need(']')
                e = ('index', e, i)
            elif self.eat('('):
                args = []
                while not self.eat(')'):
                    args.append(self.assign())
                    self.eat(',')
                e = ('call', e[1], args)
            elif self.eat('.'):
                e = ('member', e, self.next())
            elif self.eat('->'):
                e = ('member', ('un', '*', e), self.next())
            elif self.peek() in ('++', '--'):
                e = ('postinc', self.next()[0], e)
            else:
                return e

    def primary(self):
        k, v, ln = self.t[self.i]
        self.i += 1
        if k == 'num':
            s = v.rstrip('uUlL')
            suf = v[len(s):].lower()
            n = int(s, 16) if s[:2] in ('0x', '0X') else int(s)
            t = 'i32' if n < 2 ** 31 else ('u32' if n < 2 ** 32 and s[:1] == '0' else 'u64')
            if 'u' in suf:
                t = 'u32' if n < 2 ** 32 else 'u64'
            if 'l' in suf:
                t = 'u64'
            return ('num', n, t)
        if k == 'id':
            if v in ENUMS:
                return ('num', ENUMS[v], 'i32')
            return ('var', v)
        if k == 'str':
            return ('str', v)
        if v == '(':
            e = self.expr()
            self.need(')')
            return e
        raise SyntaxError('%s:%d: %r' % (ln.f, ln, v))


RANGE = {'u8': (0, 255), 'u16': (0, 65535), 'u32': (0, 2 ** 32 - 1), 'u64': (0, 2 ** 64 - 1),
         'i32': (-2 ** 31, 2 ** 31 - 1), 'bool': (0, 1)}


def wrap(n, t):
    if t == 'bool':
        return int(n != 0)
    if t == 'i32':
        return (n + 2 ** 31) % 2 ** 32 - 2 ** 31
    return n % (RANGE[t][1] + 1)


def prom(t):
    return 'i32' if t in ('u8', 'u16', 'bool') else t


def usual(a, b):
    a, b = prom(a), prom(b)
    for t in ('u64', 'u32'):
        if t in (a, b):
            return t
    return 'i32'


def fold(op, a, b, t):
    if op == '+':
        n = a + b
    elif op == '-':
        n = a - b
    elif op == '*':
        n = a * b
    elif op == '/':
        n = int(a / b) if (a < 0) != (b < 0) else a // b
    elif op == '%':
        n = abs(a) % abs(b)
    elif op == '&':
        n = a & b
    elif op == '|':
        n = a | b
    elif op == '^':
        n = a ^ b
    elif op == '<<':
        n = a << b
    elif op == '>>':
        n = a >> b
    return wrap(n, t)


def const(e):
    if e[0] == 'num':
        return e[1]
    if e[0] == 'bin':
        a, b = const(e[2]), const(e[3])
        if e[1] in ('==', '!=', '<', '>', '<=', '>='):
            return int(eval('%d %s %d' % (a, e[1], b)))
        return fold(e[1], a, b, 'u64')
    if e[0] == 'cast':
        return const(e[2])
    if e[0] == 'sizeof_t':
        return sizeof(e[1])
    raise ValueError('constant %r' % (e,))


# ---------------------------------------------------------------- lowering

BOP = {'+': 'add', '-': 'sub', '*': 'mul', '&': 'band', '|': 'bor', '^': 'bxor', '<<': 'shl', '>>': 'shr'}
CMP = {'==': 'eq', '!=': 'ne', '<': 'lt', '<=': 'le', '>': 'gt', '>=': 'ge'}
ALLOC = {'malloc', 'calloc', 'aligned_alloc'}
FREE = {'free'}
# instructions on vectors; an instruction with more than two operands is applied to pairs
PAIR = ('vec', 0)
VEC = {'_mm256_' + n: ('vec', i + 1) for i, n in enumerate([
    'xor_si256', 'andnot_si256', 'or_si256', 'slli_epi64', 'srli_epi64', 'shuffle_epi8', 'set1_epi64x', 'set_epi64x',
    'unpacklo_epi64', 'unpackhi_epi64', 'permute2f128_si256', 'shuffle_pd'])}
# operators on vectors of 64-bit words
VECOP = {o: ('vec', 20 + i) for i, o in enumerate(['splat', '^', '&', '|', '<<', '>>', '__builtin_shufflevector'])}
GLOBIX = {}              # global objects used: name -> number


def glob(n):
    return ('glob', GLOBIX.setdefault(n, len(GLOBIX)))


class Low:
    """one function"""
    def __init__(self, name):
        self.name = name
        self.ret, self.params, body, self.line, self.end = FUNCS[name]
        self.file = self.line.f
        self.vars = []           # C type of every variable; ('obj', t): address of a local object
        self.scopes = [{}]
        self.code = [[]]
        self.calls = []
        self.boxed, self.indexed, self.mult8, self.names = set(), set(), set(), {}
        self.find_boxed(body)
        if self.ret[0] == 'st' and is_rec(self.ret):
            self.hidden = self.fresh(('ptr', self.ret))
            self.arity = 1
        else:
            self.hidden, self.arity = None, 0
        late = []
        for n, t in self.params:
            t = PARAM_TYPE.get((name, n), t)
            x = self.fresh(t)
            self.arity += 1
            self.bind(n, ('v', ('var', x), t))
            if (name, n) in MULT8:
                self.mult8.add(x)
            if n in self.boxed or (t in LANES and n in self.indexed):
                late.append((n, t, x))
        for n, t, x in late:
            self.boxed.discard(n)
            y = self.new_obj(t)
            self.emit(('st', sizeof(t), ('var', y), ('var', x)))
            self.bind(n, ('m', ('var', y), t))
        if name in PROLOGUE:
            n, t, e = PROLOGUE[name]
            x = self.fresh(t)
            v, _ = self.ev(e)
            self.emit(('asg', x, v))
            self.bind(n, ('v', ('var', x), t))
        self.stmts(body)
        self.body = self.code[0]

    def err(self, m):
        raise SyntaxError('%s: %s: %s' % (self.file, self.name, m))

    def find_boxed(self, x):
        """names whose address or members are used, or which have an initializer list"""
        if isinstance(x, (list, tuple)):
            if len(x) == 3 and x[0] == 'un' and x[1] == '&' and x[2][0] == 'var':
                self.boxed.add(x[2][1])
            if len(x) == 3 and x[0] == 'member' and x[1][0] == 'var':
                self.boxed.add(x[1][1])
            if len(x) == 3 and x[0] == 'index' and x[1][0] == 'var':
                self.indexed.add(x[1][1])
            if len(x) == 5 and x[0] == 'decl' and x[3] is not None and x[3][0] == 'list':
                self.boxed.add(x[1])
            for y in x:
                self.find_boxed(y)

    # ---- helpers
    def fresh(self, t):
        self.vars.append(t)
        return len(self.vars) - 1

    def emit(self, s):
        self.code[-1].append(s)

    def bind(self, n, lv):
        if lv[1][0] == 'var':
            self.names[lv[1][1]] = n
        self.scopes[-1][n] = lv

    def lookup(self, n):
        for s in reversed(self.scopes):
            if n in s:
                return s[n]
        if n in GLOBALS:
            t = GLOBALS[n][0]
            return ('m', glob(n), t)
        self.err('unknown %s' % n)

    def new_obj(self, t):
        """a local object; members which are arrays or records are objects of their own"""
        x = self.fresh(('obj', t))
        self.emit(('new', x, ('lit', sizeof(t))))
        if is_rec(t):
            for k, (_, m) in enumerate(STRUCTS[t[1]]):
                if m[0] == 'arr' or (m[0] == 'st' and is_rec(m)):
                    y = self.new_obj(m)
                    self.emit(('stc', ('var', x), k, ('var', y)))
        return x

    def into(self, f):
        self.code.append([])
        self.scopes.append({})
        r = f()
        self.scopes.pop()
        return self.code.pop(), r

    def conv(self, v, a, b):
        """value v of type a as type b"""
        if a == b or not is_int(b) or not is_int(a):
            if is_int(b) and a[0] == 'ptr':
                return ('bin', 'ne', v, ('lit', 0)) if b == 'bool' else v
            return v
        if v[0] == 'lit':
            return ('lit', wrap(v[1], b))
        if RANGE[b][0] <= RANGE[a][0] and RANGE[a][1] <= RANGE[b][1]:
            return v
        return ('un', ('cast', b), v)

    # ---- lvalues: ('v', var, t)  ('m', address, t)  ('c', address, k, t)
    def lval(self, e):
        k = e[0]
        if k == 'var':
            return self.lookup(e[1])
        if k == 'member':
            lv = self.lval(e[1])
            t = lv[-1]
            if t[0] != 'st':
                self.err('member of %r' % (t,))
            if is_rec(t):
                a = self.addr(lv)
                ix = [n for n, _ in STRUCTS[t[1]]].index(e[2])
                m = STRUCTS[t[1]][ix][1]
                if m[0] == 'arr' or (m[0] == 'st' and is_rec(m)):
                    return ('m', ('cell', a, ix), m)
                return ('c', a, ix, m)
            o, m = offset(t, e[2])
            if lv[0] != 'm':
                self.err('member of a value %r' % (e,))
            return ('m', self.padd(lv[1], ('lit', o), 1), m)
        if k == 'index':
            if e[1][0] == 'var' and self.typeof(e[1]) in LANES:
                lv = self.lval(e[1])
                i, it = self.ev(e[2])
                return ('m', self.padd(lv[1], i, 8), 'u64')
            p, t = self.ev(e[1])
            i, it = self.ev(e[2])
            if t[0] != 'ptr':
                self.err('index of %r' % (t,))
            return self.at(self.padd(p, i, cells(t[1])), t[1])
        if k == 'un' and e[1] == '*':
            p, t = self.ev(e[2])
            if t[0] != 'ptr':
                self.err('deref of %r' % (t,))
            return self.at(p, t[1])
        if k == 'literal':
            x = self.new_obj(e[1])
            self.init(('m', ('var', x), e[1]), e[2])
            return ('m', ('var', x), e[1])
        self.err('not an lvalue: %r' % (e,))

    def at(self, a, t):
        return ('c', a, 0, t) if t[0] == 'ptr' else ('m', a, t)

    def padd(self, a, i, s):
        if i == ('lit', 0):
            return a
        return ('padd', a, i, s)

    def addr(self, lv):
        if lv[0] == 'm':
            return lv[1]
        if lv[0] == 'c' and lv[2] == 0 and lv[3][0] == 'ptr':
            return lv[1]
        self.err('address of %r' % (lv,))

    def load(self, lv):
        t = lv[-1]
        if lv[0] == 'v':
            return lv[1], t
        if lv[0] == 'c':
            return ('cell', lv[1], lv[2]), t
        if t[0] == 'arr':
            return lv[1], ('ptr', t[1])
        if t[0] == 'st' and is_rec(t):
            return lv[1], t              # the record itself, only copied
        return ('ld', sizeof(t), lv[1]), t

    def store(self, lv, v, t):
        if lv[0] == 'v':
            self.emit(('asg', lv[1][1], self.conv(v, t, lv[2])))
        elif lv[0] == 'c':
            self.emit(('stc', lv[1], lv[2], self.conv(v, t, lv[3])))
        elif lv[2][0] == 'st' and is_rec(lv[2]):
            self.copy_rec(lv[1], v, lv[2])
        else:
            self.emit(('st', sizeof(lv[2]), lv[1], self.conv(v, t, lv[2])))

    def copy_rec(self, dst, src, t):
        for k, (_, m) in enumerate(STRUCTS[t[1]]):
            if m[0] == 'arr' or (m[0] == 'st' and is_rec(m)):
                self.err('copy of a record with objects')
            self.emit(('stc', dst, k, ('cell', src, k)))

    def init(self, lv, e):
        """initializer list: the object is zero, then the given members are stored"""
        t = lv[2]
        leaves = []

        def walk(t, a, e):
            if e[0] == 'list':
                if t in LANES:
                    for i, x in enumerate(e[1]):
                        walk('u64', self.padd(a, ('lit', i), 8), x)
                elif t[0] == 'arr':
                    for i, x in enumerate(e[1]):
                        walk(t[1], self.padd(a, ('lit', i), cells(t[1])), x)
                elif t[0] == 'st':
                    for (n, m), x in zip(STRUCTS[t[1]], e[1]):
                        walk(m, self.padd(a, ('lit', offset(t, n)[0]), 1), x)
                else:
                    assert len(e[1]) == 1
                    walk(t, a, e[1][0])
            else:
                leaves.append((t, a, e))
        if t[0] == 'arr' and t[1][0] == 'ptr':
            for i, x in enumerate(e[1]):
                v, vt = self.ev(x)
                self.emit(('stc', self.padd(lv[1], ('lit', i), 1), 0, v))
            return
        assert is_bytes(t), t
        walk(t, lv[1], e)
        full = sum(sizeof(l[0]) for l in leaves) == sizeof(t)
        zeros = all(l[2] == ('num', 0, 'i32') for l in leaves)
        if not full or zeros:
            self.call('memset', [(lv[1], ('ptr', 'void')), (('lit', 0), 'i32'), (('lit', sizeof(t)), 'u64')])
            if zeros:
                return
        for lt, a, x in leaves:
            v, vt = self.ev(x)
            self.emit(('st', sizeof(lt), a, self.conv(v, vt, lt)))

    # ---- expressions
    def typeof(self, e):
        n, c, cl = len(self.vars), self.code, list(self.calls)
        self.code = [[]]
        try:
            if e[0] == 'var':
                return self.lookup(e[1])[-1]
            if e[0] in ('member', 'index') or e[:2] == ('un', '*'):
                return self.lval(e)[-1]
            return self.ev(e)[1]
        finally:
            del self.vars[n:]
            self.code, self.calls = c, cl

    def ev(self, e):
        k = e[0]
        if k == 'num':
            return ('lit', e[1]), e[2]
        if k in ('var', 'member', 'index', 'literal'):
            return self.load(self.lval(e))
        if k == 'comma':
            self.effect(e[1])
            return self.ev(e[2])
        if k == 'un':
            op = e[1]
            if op == '*':
                return self.load(self.lval(e))
            if op == '&':
                lv = self.lval(e[2])
                return self.addr(lv), ('ptr', lv[-1])
            v, t = self.ev(e[2])
            if op == '!':
                if v[0] == 'lit':
                    return ('lit', int(v[1] == 0)), 'i32'
                return ('un', 'lnot', v), 'i32'
            p = prom(t)
            v = self.conv(v, t, p)
            if op == '+':
                return v, p
            if v[0] == 'lit':
                return ('lit', wrap(-v[1] if op == '-' else ~v[1], p)), p
            return ('un', ({'-': 'neg', '~': 'bnot'}[op], p), v), p
        if k == 'cast':
            v, t = self.ev(e[2])
            if e[1] == 'void':
                return v, 'void'
            if t[0] == 'ptr' and is_int(e[1]):
                self.err('pointer to integer')
            return self.conv(v, t, e[1]), e[1]
        if k == 'sizeof_t':
            return ('lit', sizeof(e[1])), 'u64'
        if k == 'sizeof_e':
            return ('lit', sizeof(self.typeof(e[1]))), 'u64'
        if k == 'bin':
            return self.binop(e)
        if k == 'cond':
            c, _ = self.ev(e[1])
            if c[0] == 'lit':
                return self.ev(e[2] if c[1] else e[3])
            ta, tb = self.typeof(e[2]), self.typeof(e[3])
            if ta[0] == 'arr':
                ta = ('ptr', ta[1])
            t = ta if ta in LANES else usual(ta, tb) if is_int(ta) and is_int(tb) else (tb if ta == ('ptr', 'void') else ta)
            x = self.fresh(t)

            def arm(a):
                def f():
                    v, vt = self.ev(a)
                    self.emit(('asg', x, self.conv(v, vt, t)))
                return self.into(f)[0]
            self.emit(('ite', c, arm(e[2]), arm(e[3])))
            return ('var', x), t
        if k == 'assign':
            lv = self.lval(e[1])
            self.assign(lv, e[2])
            return self.load(lv)
        if k == 'opassign':
            lv = self.lval(e[2])
            v, t = self.binop(('bin', e[1], ('@', self.load(lv)), e[3]))
            self.store(lv, v, t)
            return self.load(lv)
        if k == 'postinc':
            lv = self.lval(e[2])
            v, t = self.load(lv)
            x = self.fresh(t)
            self.emit(('asg', x, v))
            w, wt = self.binop(('bin', e[1], ('@', (('var', x), t)), ('num', 1, 'i32')))
            self.store(lv, w, wt)
            return ('var', x), t
        if k == '@':
            return e[1]
        if k == 'call':
            return self.ecall(e[1], e[2], None)
        self.err('expression %r' % (e,))

    def assign(self, lv, e):
        if e[0] == 'call' and e[1] not in ALLOC and e[1] in FUNCS:
            rt = FUNCS[e[1]][0]
            if rt[0] == 'st' and is_rec(rt):
                self.ecall(e[1], e[2], self.addr(lv))
                return
        if e[0] in ('call', 'cast') and lv[-1][0] == 'ptr':
            c = e
            while c[0] == 'cast':
                c = c[2]
            if c[0] == 'call' and c[1] in ALLOC:
                v, t = self.alloc(c, lv[-1])
                self.store(lv, v, t)
                return
        v, t = self.ev(e)
        self.store(lv, v, t)

    def alloc(self, e, t):
        args = [self.ev(a) for a in e[2]]
        if e[1] == 'calloc':
            n, _ = self.binop(('bin', '*', ('@', args[0]), ('@', args[1])))
        else:
            n, _ = args[-1]
        x = self.fresh(t)
        self.emit(('new', x, n))
        return ('var', x), t

    def ecall(self, f, args, out):
        if f in FREE:
            v, _ = self.ev(args[0])
            self.emit(('free', v))
            return ('lit', 0), 'void'
        if f in ALLOC:
            self.err('allocation without a type')
        if f.startswith('_mm256_'):
            vs = [self.ev(a) for a in args]
            if f in ('_mm256_load_si256', '_mm256_loadu_si256'):
                return ('ld', 32, vs[0][0]), 'v256'
            if f in ('_mm256_store_si256', '_mm256_storeu_si256'):
                self.emit(('st', 32, vs[0][0], vs[1][0]))
                return ('lit', 0), 'void'
            if f in ('_mm256_castpd_si256', '_mm256_castsi256_pd'):
                return vs[0][0], 'v256'
            r = vs[-1][0]
            for v, _ in reversed(vs[1:-1]):
                r = ('bin', PAIR, v, r)
            return ('bin', VEC[f], vs[0][0], r if len(vs) > 1 else ('lit', 0)), 'v256'
        if f == '__builtin_shufflevector':
            vs = [self.ev(a) for a in args]
            r = vs[-1][0]
            for v in [v for v, _ in vs[2:-1]][::-1] + [('lit', LANES[vs[0][1]]), vs[1][0]]:
                r = ('bin', PAIR, v, r)
            return ('bin', VECOP[f], vs[0][0], r), vs[0][1]
        if f == 'assert':
            v, _ = self.ev(args[0])
            self.emit(('ite', v, [], []))
            return ('lit', 0), 'void'
        vs = []
        for a in args:
            if a[0] == 'cast' and a[1][0] == 'ptr':
                a = a[2]
            vs.append(self.ev(a))
        v, t = self.call(f, vs, out)
        if f in RELEASED and self.file.startswith('faest_param'):
            # the result is released: stored into the public block and read back
            w = sizeof(t)
            self.emit(('st', w, glob('released'), v))
            x = self.fresh(t)
            self.emit(('asg', x, ('ld', w, glob('released'))))
            return ('var', x), t
        return v, t

    def call(self, f, vs, out=None):
        if f not in FUNCS:
            self.err('call of %s' % f)
        ret, ps = FUNCS[f][:2]
        if len(ps) != len(vs):
            self.err('arguments of %s' % f)
        args = []
        if ret[0] == 'st' and is_rec(ret):
            if out is None:
                self.err('record of %s not used' % f)
            args.append(out)
        for (v, t), (n, pt) in zip(vs, ps):
            pt = PARAM_TYPE.get((f, n), pt)
            if (f, n) in MULT8 and not (v[0] == 'bin' and v[1][0] == 'shl' and v[3] == ('lit', 3)):
                self.err('argument of %s is not a multiple of 8' % f)
            args.append(self.conv(v, t, pt))
        self.calls.append(f)
        if ret == 'void' or (ret[0] == 'st' and is_rec(ret)):
            self.emit(('call', None, f, args))
            return ('lit', 0), 'void'
        x = self.fresh(ret)
        self.emit(('call', x, f, args))
        return ('var', x), ret

    def binop(self, e):
        op = e[1]
        if op in ('&&', '||'):
            a, _ = self.ev(e[2])
            if a[0] == 'lit':
                if bool(a[1]) == (op == '||'):
                    return ('lit', int(op == '||')), 'i32'
                b, bt = self.ev(e[3])
                return (('lit', int(b[1] != 0)) if b[0] == 'lit' else ('bin', 'ne', b, ('lit', 0))), 'i32'
            x = self.fresh('i32')

            def right():
                b, bt = self.ev(e[3])
                self.emit(('asg', x, ('bin', 'ne', b, ('lit', 0))))
            r = self.into(right)[0]
            c = [('asg', x, ('lit', int(op == '||')))]
            self.emit(('ite', a, r, c) if op == '&&' else ('ite', a, c, r))
            return ('var', x), 'i32'
        a, ta = self.ev(e[2])
        b, tb = self.ev(e[3])
        if ta[0] == 'ptr' and op in ('+', '-') and is_int(tb):
            if op == '-':
                b = ('lit', -b[1]) if b[0] == 'lit' else ('un', ('neg', 'u64'), b)
            return self.padd(a, b, cells(ta[1])), ta
        if tb[0] == 'ptr' and op == '+':
            return self.padd(b, a, cells(tb[1])), tb
        if op in CMP:
            if ta[0] == 'ptr' or tb[0] == 'ptr':
                return ('bin', CMP[op], a, b), 'i32'
            t = usual(ta, tb)
            a, b = self.conv(a, ta, t), self.conv(b, tb, t)
            if a[0] == 'lit' and b[0] == 'lit':
                return ('lit', int(eval('%d %s %d' % (a[1], op, b[1])))), 'i32'
            return ('bin', CMP[op], a, b), 'i32'
        if ta in LANES or tb in LANES:
            t = ta if ta in LANES else tb
            if ta != t:
                a = ('bin', VECOP['splat'], a, ('lit', LANES[t]))
            if tb != t:
                b = ('bin', VECOP['splat'], b, ('lit', LANES[t]))
            return ('bin', VECOP[op], a, b), t
        if not is_int(ta) or not is_int(tb):
            self.err('%s of %r and %r' % (op, ta, tb))
        if op in ('<<', '>>'):
            t = prom(ta)
            a = self.conv(a, ta, t)
        else:
            t = usual(ta, tb)
            a, b = self.conv(a, ta, t), self.conv(b, tb, t)
        if op == '%' and b == ('lit', 8) and a[0] == 'var' and a[1] in self.mult8:
            return ('lit', 0), t
        if a[0] == 'lit' and b[0] == 'lit' and not (op in '/%' and b[1] == 0):
            return ('lit', fold(op, a[1], b[1], t)), t
        if op in '/%':
            return ('div', ('div' if op == '/' else 'mod', t), a, b), t
        return ('bin', (BOP[op], t), a, b), t

    def effect(self, e):
        if e[0] == 'postinc':
            e = ('opassign', e[1], e[2], ('num', 1, 'i32'))
        if e[0] == 'comma':
            self.effect(e[1])
            self.effect(e[2])
        elif e[0] == 'assign':
            self.assign(self.lval(e[1]), e[2])
        elif e[0] == 'opassign':
            lv = self.lval(e[2])
            v, t = self.binop(('bin', e[1], ('@', self.load(lv)), e[3]))
            self.store(lv, v, t)
        else:
            self.ev(e)

    # ---- statements
    def stmts(self, ss):
        for s in ss:
            self.stmt(s)

    def scoped(self, ss):
        return self.into(lambda: self.stmts(ss))[0]

    def stmt(self, s):
        k = s[0]
        if k == 'decl':
            _, n, t, init, _ = s
            if t[0] == 'arr' or (t[0] == 'st' and is_rec(t)) or n in self.boxed or \
                    (t in LANES and n in self.indexed):
                x = self.new_obj(t)
                lv = ('m', ('var', x), t)
                if init is not None:
                    if init[0] == 'list':
                        self.init(lv, init)
                    else:
                        self.assign(lv, init)
                self.bind(n, lv)
            else:
                x = self.fresh(t)
                lv = ('v', ('var', x), t)
                if init is not None:
                    if init[0] == 'list':
                        self.err('list')
                    self.assign(lv, init)
                self.bind(n, lv)
        elif k == 'block':
            self.scopes.append({})
            self.stmts(s[1])
            self.scopes.pop()
        elif k == 'expr':
            self.effect(s[1])
        elif k == 'if':
            c, _ = self.ev(s[1])
            if c[0] == 'lit':
                self.stmt(('block', s[2] if c[1] else s[3]))
            else:
                self.emit(('ite', c, self.scoped(s[2]), self.scoped(s[3])))
        elif k == 'loop':
            pre, (c, _) = self.into(lambda: self.ev(s[1]))
            body = self.scoped(s[2])
            step = self.scoped(s[3])
            if pre:
                body = pre + [('ite', c, [], [('brk',)])] + body
                c = ('lit', 1)
            self.emit(('loop', c, body, step))
        elif k == 'switch':
            v, t = self.ev(s[1])
            x = self.fresh(prom(t))
            self.emit(('asg', x, v))
            cases = []
            nested = False
            for i, (ls, b) in enumerate(s[2]):
                if b and b[-1] == ('break',):
                    b = b[:-1]
                elif not (b and self.exits(b)):
                    # the case runs into the next ones
                    for _, d in s[2][i + 1:]:
                        b = b + d
                        if b and b[-1] == ('break',):
                            b = b[:-1]
                            break
                        if b and self.exits(b):
                            break
                nested |= self.has_break(b)
                cases.append((ls, b))

            def chain(i):
                if i == len(cases):
                    d = [b for ls, b in cases if None in ls]
                    return self.scoped(d[0]) if d else []
                ls, b = cases[i]
                if None in ls:
                    return chain(i + 1)
                c = None
                for l in ls:
                    q = ('bin', 'eq', ('var', x), ('lit', l))
                    c = q if c is None else ('bin', ('bor', 'i32'), c, q)
                body = self.scoped(b)
                return [('ite', c, body, chain(i + 1))]
            code = chain(0)
            if nested:
                code = [('loop', ('lit', 1), code + [('brk',)], [])]
            for c in code:
                self.emit(c)
        elif k == 'return':
            if s[1] is None:
                self.emit(('ret', ('lit', 0)))
            elif self.hidden is not None:
                v, t = self.ev(s[1])
                self.copy_rec(('var', self.hidden), v, t)
                self.emit(('ret', ('lit', 0)))
            else:
                v, t = self.ev(s[1])
                self.emit(('ret', self.conv(v, t, self.ret)))
        elif k == 'break':
            self.emit(('brk',))
        elif k == 'continue':
            self.emit(('cont',))
        else:
            self.err('statement %r' % (s,))

    def exits(self, b):
        s = b[-1]
        return s[0] == 'return' or (s[0] == 'block' and s[1] and self.exits(s[1])) or \
            (s[0] == 'if' and s[2] and s[3] and self.exits(s[2]) and self.exits(s[3]))

    def has_break(self, b):
        for s in b:
            if s[0] in ('break', 'continue'):
                return True
            if s[0] == 'if' and (self.has_break(s[2]) or self.has_break(s[3])):
                return True
            if s[0] == 'block' and self.has_break(s[1]):
                return True
        return False


# ---------------------------------------------------------------- what is translated

PRELUDE = '''
void* memcpy(void* dst, const void* src, size_t n) {
  uint8_t* d = dst; const uint8_t* s = src;
  for (size_t i = 0; i < n; ++i) { d[i] = s[i]; }
  return dst;
}
void* memmove(void* dst, const void* src, size_t n) {
  uint8_t* d = dst; const uint8_t* s = src;
  for (size_t i = 0; i < n; ++i) { d[i] = s[i]; }
  return dst;
}
void* memset(void* dst, int c, size_t n) {
  uint8_t* d = dst;
  for (size_t i = 0; i < n; ++i) { d[i] = c; }
  return dst;
}
int memcmp(const void* a, const void* b, size_t n) {
  const uint8_t* p = a; const uint8_t* q = b;
  for (size_t i = 0; i < n; ++i) { if (p[i] != q[i]) { return p[i] - q[i]; } }
  return 0;
}
uint8_t rand_tape[];
size_t rand_pos;
int rand_result;
uint64_t released;
int rand_bytes(uint8_t* dst, size_t len) {
  for (size_t i = 0; i < len; ++i) { dst[i] = rand_tape[rand_pos + i]; }
  rand_pos += len;
  return rand_result;
}
typedef struct { uint8_t* rest; uint8_t* iv; uint8_t* chall_3; } sigbuf;
'''
if BE:
    # endian_compat.h:22-36
    PRELUDE += '''
uint16_t bswap16(uint16_t x) { return ((x & 0xff00) >> 8) | ((x & 0x00ff) << 8); }
uint64_t bswap64(uint64_t x) {
  return ((x & 0xff00000000000000ULL) >> 56) | ((x & 0x00ff000000000000ULL) >> 40) |
         ((x & 0x0000ff0000000000ULL) >> 24) | ((x & 0x000000ff00000000ULL) >> 8) |
         ((x & 0x00000000ff000000ULL) << 8) | ((x & 0x0000000000ff0000ULL) << 24) |
         ((x & 0x000000000000ff00ULL) << 40) | ((x & 0x00000000000000ffULL) << 56);
}
'''
if SHA3 == 'avx2':
    # the functions for one state are in assembler; those of opt64 are in their place, and this one for the macro there
    PRELUDE += '''
void KeccakP1600_AddByte(void *state, unsigned char data, unsigned int offset) { ((unsigned char*)state)[offset] ^= data; }
'''
UNITS = ['compat.c', 'fields.c', 'aes.c', 'owf.c', 'instances.c', 'universal_hashing.c', 'vc.c', 'vole.c',
         'sha3/plain32/KeccakP-1600-inplace32BI.c' if SHA3 == 'plain32' else 'sha3/opt64/KeccakP-1600-opt64.c',
         'sha3/KeccakSponge.c', 'sha3/KeccakHash.c',
         'sha3/avx2/KeccakP-1600-times4-SIMD256.c' if SHA3 == 'avx2' else 'sha3/%s/KeccakP-1600-times4-on1.c' % SHA3,
         'sha3/KeccakSpongetimes4.c', 'sha3/KeccakHashtimes4.c',
         'random_oracle.c', 'faest_aes.c', 'faest.c']
SKIP_INCLUDE = set()

# The signature of faest_sign is three objects, each addressed with the offsets of the whole signature: what the
# functions signature_iv and signature_chall_3 return, and the rest.
SIGBUF = ('ptr', ('st', 'sigbuf'))
PARAM_TYPE, PROLOGUE = {('faest_sign', 'sig'): SIGBUF}, {}
for _f, _m in (('c', 'rest'), ('u_tilde', 'rest'), ('d', 'rest'), ('a_tilde', 'rest'), ('pdec', 'rest'), ('com', 'rest'),
               ('chall_3', 'chall_3'), ('iv', 'iv')):
    PARAM_TYPE[('signature_' + _f, 'base_ptr')] = SIGBUF
    PROLOGUE['signature_' + _f] = ('base_ptr', ('ptr', 'u8'), ('member', ('un', '*', ('var', 'base_ptr')), _m))
# parameters whose arguments are shifted left by 3 (this is checked at the calls): x % 8 is 0
MULT8 = {('Keccak_HashUpdate', 'databitlen')}
RELEASED = {'owf_128', 'owf_192', 'owf_256', 'owf_em_128', 'owf_em_192', 'owf_em_256', 'faest_timingsafe_bcmp'}


def front():
    global CUR
    c2lean.REPO = REPO
    c2lean.read_meson()
    top = os.path.join(REPO, 'sha3')
    Parser([(a, b, c2hash.Ln(l, 'PRELUDE of tools/c2leak.py')) for a, b, l in tokenize(PRELUDE)]).unit()
    for u in UNITS:
        dirs = [top, os.path.join(top, 'opt64' if 'opt64' in u else SHA3), REPO]
        cpp = CPP(dirs, ['WITH_KECCAK_X4'], None)
        cpp.run(os.path.join(REPO, u))
        if 'SIMD256' in u:
            # a second object with the name of one of opt64
            cpp.out = [(a, b + '_4' if b == 'KeccakF1600RoundConstants' else b, l) for a, b, l in cpp.out]
        Parser(cpp.out).unit()
    for s in c2lean.SETS:
        CUR = s
        cpp = CPP(dirs, [], s)
        cpp.run(os.path.join(REPO, 'faest_param.c.in'))
        lines = {}
        Parser(cpp.out).unit()
        CUR = None
        p = 'faest_%s_' % s['PARAM_L']
        for f in ('sign', 'sign_with_randomness'):
            PARAM_TYPE[(p + f, 'signature')] = SIGBUF



LOWERED = {}


def lower(entries):
    """the functions reachable from the entries, callees first"""
    def visit(f):
        if f in LOWERED:
            return
        LOWERED[f] = None
        l = Low(f)
        for g in l.calls:
            visit(g)
        del LOWERED[f]
        LOWERED[f] = l
    for e in entries:
        visit(e)


def entries():
    es = ['faest_sign']
    for s in c2lean.SETS:
        es += ['faest_%s_%s' % (s['PARAM_L'], x) for x in ('keygen', 'sign', 'sign_with_randomness', 'validate_keypair')]
    return es



# ---------------------------------------------------------------- the certificate

class Node:
    """what a pointer points to: bytes with a level, pointers to a node, or a record of levels and nodes"""
    def __init__(self, kind):
        self.p, self.kind, self.lvl, self.mem = None, kind, 'lo', None

    def find(self):
        n = self
        while n.p is not None:
            n = n.p
        return n


class Lv:
    """level of a number"""
    def __init__(self):
        self.p, self.lvl = None, 'lo'

    find = Node.find


CH = [0]                 # number of changes, to detect the end of the iteration


def mk(t):
    """type of a value of C type t"""
    if t[0] == 'ptr':
        return mkptr(t[1])
    if t[0] == 'obj':
        return mkptr(t[1])
    return Lv()


def mkptr(t):
    if is_bytes(t):
        return Node('bytes')
    if t[0] == 'ptr':
        n = Node('ptrs')
        n.mem = [mkptr(t[1])]
        return n
    if t[0] == 'arr':
        return mkptr(t[1])
    n = Node('rec')
    n.mem = [mkptr(m) if m[0] == 'arr' or (m[0] == 'st' and is_rec(m)) else mk(m) for _, m in STRUCTS[t[1]]]
    return n


def raise_(x, l):
    x = x.find()
    if l == 'hi' and x.lvl == 'lo':
        x.lvl = 'hi'
        CH[0] += 1
    if l == 'out' and x.lvl != 'out':
        if x.lvl == 'hi':
            raise ValueError('secret bytes and public block')
        x.lvl = 'out'
        CH[0] += 1


def unify(a, b):
    a, b = a.find(), b.find()
    if a is b:
        return
    if isinstance(a, Lv) != isinstance(b, Lv) or (isinstance(a, Node) and a.kind != b.kind):
        raise ValueError('unify')
    l = b.lvl
    if l == 'out' or a.lvl == 'out':
        if 'hi' in (l, a.lvl):
            raise ValueError('secret bytes and public block')
        a.lvl = l = 'out'
    CH[0] += 1
    b.p = a
    raise_(a, l)
    if isinstance(a, Node) and a.mem:
        for x, y in zip(a.mem, b.mem):
            unify(x, y)


def key(x):
    x = x.find()
    if isinstance(x, Lv):
        return x.lvl
    if x.kind == 'bytes':
        return ('b', x.lvl)
    return (x.kind,) + tuple(key(m) for m in x.mem)


def unkey(k):
    if isinstance(k, str):
        x = Lv()
        x.lvl = k
        return x
    x = Node('bytes' if k[0] == 'b' else k[0])
    if k[0] == 'b':
        x.lvl = k[1]
    else:
        x.mem = [unkey(m) for m in k[1:]]
    return x


def raise_to(x, k):
    x = x.find()
    if isinstance(k, str):
        raise_(x, k)
    elif k[0] == 'b':
        raise_(x, k[1])
    else:
        for m, q in zip(x.mem, k[1:]):
            raise_to(m, q)


def paths(x, p):
    """the nodes reachable from a value"""
    x = x.find()
    if isinstance(x, Node):
        yield p, x
        for i, m in enumerate(x.mem or []):
            yield from paths(m, p + (i,))


class Inst:
    pass


INST = {}
GLOBKEY = {'released': ('b', 'out'), 'rand_tape': ('b', 'hi')}
PROBLEMS = []


def instance(f, keys):
    """the typing of function f for arguments of these types"""
    if (f, keys) in INST:
        return INST[(f, keys)]
    l = LOWERED[f]
    vs = [unkey(k) for k in keys] + [mk(t) for t in l.vars[len(keys):]]
    ret = None if l.ret == 'void' or l.hidden is not None else mk(l.ret)
    globs = {g: unkey(GLOBKEY.get(n, ('b', 'lo'))) for n, g in GLOBIX.items()}
    uses, nulls = {}, {}

    def ex(e, bad):
        k = e[0]
        if k == 'var':
            return vs[e[1]].find()
        if k == 'lit':
            return 'lo'
        if k == 'glob':
            return globs[e[1]].find()
        if k == 'un':
            return lev(ex(e[2], bad))
        if k == 'bin':
            a, b = lev(ex(e[2], bad)), lev(ex(e[3], bad))
            return 'hi' if 'hi' in (a, b) else 'lo'
        if k == 'div':
            if 'hi' in (lev(ex(e[2], bad)), lev(ex(e[3], bad))):
                bad.append('division')
            return 'lo'
        if k == 'padd':
            if lev(ex(e[2], bad)) == 'hi':
                bad.append('index')
            return ex(e[1], bad)
        if k == 'ld':
            n = ex(e[2], bad)
            if not isinstance(n, Node) or n.kind != 'bytes':
                raise ValueError('%s: load %r' % (f, e))
            return 'hi' if n.lvl == 'hi' else 'lo'
        if k == 'cell':
            n = ex(e[1], bad)
            if not isinstance(n, Node) or n.kind == 'bytes':
                raise ValueError('%s: cell %r' % (f, e))
            return n.mem[e[2]].find()

    def lev(x):
        if isinstance(x, str):
            return x
        if isinstance(x, Lv):
            return x.lvl
        return 'lo'

    def flow(v, x):
        """value v into x"""
        x = x.find()
        if isinstance(x, Lv):
            raise_(x, lev(v))
        elif isinstance(v, Node):
            unify(x, v)

    def st(ss, bad):
        for s in ss:
            k = s[0]
            if k == 'asg':
                flow(ex(s[2], bad), vs[s[1]])
            elif k == 'st':
                raise_(ex(s[2], bad), lev(ex(s[3], bad)))
            elif k == 'stc':
                n = ex(s[1], bad)
                flow(ex(s[3], bad), n.mem[s[2]])
            elif k in ('ite', 'loop'):
                if lev(ex(s[1], bad)) == 'hi':
                    bad.append('branch on %r' % (s[1],))
                st(s[2], bad)
                st(s[3], bad)
            elif k == 'ret':
                if ret is not None:
                    flow(ex(s[1], bad), ret)
            elif k == 'new':
                if lev(ex(s[2], bad)) == 'hi':
                    bad.append('allocation')
            elif k == 'free':
                ex(s[1], bad)
            elif k == 'call':
                args = []
                for i, (a, t) in enumerate(zip(s[3], LOWERED[s[2]].vars)):
                    v = ex(a, bad)
                    if isinstance(v, str):
                        if t[0] == 'ptr':
                            v = nulls.setdefault((id(s), i), mk(t))        # a null pointer
                        else:
                            w = Lv()
                            w.lvl = v
                            v = w
                    args.append(v)
                while True:
                    c = CH[0]
                    r = instance(s[2], tuple(key(a) for a in args))
                    for a, q in zip(args, r.out):
                        if isinstance(a, Node):
                            raise_to(a, q)
                    res = None
                    if s[1] is not None:
                        res = vs[s[1]]
                        if isinstance(res.find(), Lv):
                            raise_(res, r.ret)
                        else:
                            raise_to(res, r.ret)
                    at = dict(q for i, a in enumerate(args) for q in paths(a, (i,)))
                    if res is not None:
                        at.update(dict(paths(res, ('ret',))))
                    for grp in r.alias:
                        g = [at[p] for p in grp if p in at]
                        for x in g[1:]:
                            unify(g[0], x)
                    if CH[0] == c:
                        break
                uses[id(s)] = r
    while True:
        c, bad = CH[0], []
        st(l.body, bad)
        if CH[0] == c:
            break
    r = Inst()
    r.f, r.vars = f, [key(v) for v in vs]
    r.out = [key(v) for v in vs[:len(keys)]]
    r.ret = 'lo' if ret is None else key(ret)
    for n, g in GLOBIX.items():
        if key(globs[g]) != GLOBKEY.get(n, ('b', 'lo')):
            bad.append('global %s' % n)
    by = {}
    for i in range(len(keys)):
        for p, n in paths(vs[i], (i,)):
            by.setdefault(id(n), []).append(p)
    if ret is not None:
        for p, n in paths(ret, ('ret',)):
            by.setdefault(id(n), []).append(p)
    r.alias = [v for v in by.values() if len(v) > 1]
    r.uses = uses
    for b in bad:
        PROBLEMS.append('%s(%s): %s' % (f, ','.join(map(str, keys)), b))
    INST[(f, keys)] = r
    return r


B = lambda l: ('b', l)
SIGK = ('rec', B('hi'), B('out'), B('out'))


def entry_keys(e):
    if e == 'faest_sign':
        return (SIGK, B('hi'), 'lo', B('hi'), B('hi'), B('hi'), B('hi'), 'lo', B('lo'))
    if e.endswith('_keygen') or e.endswith('_validate_keypair'):
        return (B('hi'), B('hi'))
    if e.endswith('_sign'):
        return (B('hi'), B('hi'), 'lo', SIGK, B('lo'))
    return (B('hi'), B('hi'), 'lo', B('hi'), 'lo', SIGK, B('lo'))



# ---------------------------------------------------------------- output

HEAD = '/-\nGenerated by tools/c2leak.py; do not edit.\n%s\n-/\n'
MODS = {}                # file -> name of its module
MAXB = 40


def modname(f):
    b = os.path.basename(f).replace('.c.in', '').replace('.c', '').replace('.h', '').replace('.inc', '')
    if f == 'PRELUDE of tools/c2leak.py':
        return 'Prelude'
    return ''.join(x[:1].upper() + x[1:] for x in re.split(r'[_\-]', b)) + ('H' if f.endswith('.h') else '')


def lit(n):
    return '(%d)' % n if n < 0 else '%d' % n


def pe(e):
    k = e[0]
    if k == 'var':
        return '.var %d' % e[1]
    if k == 'lit':
        return '.lit %s' % lit(e[1])
    if k == 'glob':
        return '.glob %d' % e[1]
    if k == 'un':
        o = '.lnot' if e[1] == 'lnot' else '(.%s .%s)' % e[1]
        return '.un %s (%s)' % (o, pe(e[2]))
    if k == 'bin':
        o = '.%s' % e[1] if isinstance(e[1], str) else \
            '(.vec %d)' % e[1][1] if e[1][0] == 'vec' else '(.%s .%s)' % e[1]
        return '.bin %s (%s) (%s)' % (o, pe(e[2]), pe(e[3]))
    if k == 'div':
        return '.div (.%s .%s) (%s) (%s)' % (e[1] + (pe(e[2]), pe(e[3])))
    if k == 'padd':
        return '.padd (%s) (%s) %d' % (pe(e[1]), pe(e[2]), e[3])
    if k == 'ld':
        return '.ld %d (%s)' % (e[1], pe(e[2]))
    if k == 'cell':
        return '.cell (%s) %d' % (pe(e[1]), e[2])
    raise ValueError(e)


class Out:
    def __init__(self, name):
        self.name, self.n, self.defs = name, 0, []

    def block(self, ss, ind):
        """text of a list of statements; long lists become definitions"""
        if len(ss) > MAXB:
            parts = [ss[i:i + MAXB] for i in range(0, len(ss), MAXB)]
            names = []
            for p in parts:
                t = self.block(p, 2)
                n = '%s.part%d' % (self.name, self.n)
                self.n += 1
                self.defs.append('def %s : Stmt :=\n  %s\n' % (n, t))
                names.append(n)
            return self.lst(names, ind)
        return self.lst([self.stmt(s, ind + 2) for s in ss], ind)

    def lst(self, xs, ind):
        if not xs:
            return '.skip'
        if len(xs) == 1:
            return xs[0]
        sep = ',\n' + ' ' * (ind + 2)
        return 'block [\n' + ' ' * (ind + 2) + sep.join(xs) + ']'

    def stmt(self, s, ind):
        k = s[0]
        if k == 'asg':
            return '.asg %d (%s)' % (s[1], pe(s[2]))
        if k == 'st':
            return '.st %d (%s) (%s)' % (s[1], pe(s[2]), pe(s[3]))
        if k == 'stc':
            return '.stc (%s) %d (%s)' % (pe(s[1]), s[2], pe(s[3]))
        if k in ('ite', 'loop'):
            nl = '\n' + ' ' * (ind + 2)
            return '.%s (%s)%s(%s)%s(%s)' % (k, pe(s[1]), nl, self.block(s[2], ind + 2), nl, self.block(s[3], ind + 2))
        if k == 'brk':
            return '.brk'
        if k == 'cont':
            return '.cont'
        if k == 'ret':
            return '.ret (%s)' % pe(s[1])
        if k == 'call':
            x = 'none' if s[1] is None else '(some %d)' % s[1]
            return '.call %s %s [%s]' % (x, idname(s[2]), ', '.join(pe(a) for a in s[3]))
        if k == 'new':
            return '.new %d (%s)' % (s[1], pe(s[2]))
        if k == 'free':
            return '.free (%s)' % pe(s[1])
        raise ValueError(s)


def wrap_lines(t):
    out = []
    for ln in t.split('\n'):
        ind = len(ln) - len(ln.lstrip()) + 2
        while len(ln) > 118:
            i = ln.rfind(' ', ind + 1, 118)
            if i < 0:
                break
            out.append(ln[:i])
            ln = ' ' * ind + ln[i + 1:]
        out.append(ln)
    return '\n'.join(out)


def write(path, t):
    os.makedirs(os.path.dirname(path), exist_ok=True)
    with _open(path, 'w') as f:
        f.write(wrap_lines(t))


RECS = {}
BASE = None              # numbers and bodies of the first build


def idname(f):
    return ('Prog.Id.%s' if BASE and f in BASE['ids'] else 'Id.%s') % f


def row(k):
    """number of the record type a pointer of type k points to"""
    ms = [k[1]] if k[0] == 'b' else [tyof(m) for m in k[1:]]
    return RECS.setdefault(tuple(ms), len(RECS))


def tyof(k):
    return k if isinstance(k, str) else 'ptr %d' % row(k)


def lean():
    ids = dict(BASE['ids']) if BASE else {}
    for f in LOWERED:
        ids.setdefault(f, len(ids))
    mine = {f for f in LOWERED if not BASE or BASE['body'].get(f) != (LOWERED[f].arity, LOWERED[f].body)}
    if not BASE:
        with _open(STATE, 'wb') as h:
            pickle.dump({'ids': ids, 'globs': GLOBIX, 'body': {f: (l.arity, l.body) for f, l in LOWERED.items()}}, h)
    model = os.path.join(OUT, 'Model', 'Leak', NAME)
    prog, cert = NAME[0].lower() + NAME[1:], CERT[0].lower() + CERT[1:]
    ns = CERT if BASE else 'Cert0'
    pdir = 'Proofs.Leak.%s' % CERT if BASE else 'Proofs.Leak'
    t = HEAD % 'Numbers of the functions and of the global objects.'
    t += '\nnamespace Faest.Leak.%s.Id\n\n' % NAME
    for f, i in ids.items():
        if not BASE or f not in BASE['ids']:
            t += '@[reducible] def %s : Nat := %d\n' % (f, i)
    t += '\nend Faest.Leak.%s.Id\n\nnamespace Faest.Leak.%s.Glob\n\n' % (NAME, NAME)
    for g, i in GLOBIX.items():
        if not BASE or g not in BASE['globs']:
            ln = GLOBALS[g][1]
            t += '/-- %s:%d -/\n@[reducible] def %s : Nat := %d\n' % (ln.f, ln, g, i)
    t += '\nend Faest.Leak.%s.Glob\n' % NAME
    write(os.path.join(model, 'Ids.lean'), t)
    byfile = {}
    for f, l in LOWERED.items():
        if f in mine:
            byfile.setdefault(l.file, []).append(f)
    mods = []
    for file, fs in byfile.items():
        m = modname(file)
        mods.append(m)
        t = HEAD % ('Functions of %s.' % file) + 'import Verif.Model.Leak.IR\nimport Verif.Model.Leak.Prog.Ids\n'
        if BASE:
            t += 'import Verif.Model.Leak.%s.Ids\n' % NAME
        t += '\nnamespace Faest.Leak.%s\n\n' % NAME
        for f in fs:
            l = LOWERED[f]
            o = Out(f)
            b = o.block(l.body, 2)
            for d in o.defs:
                t += '/-- part of `%s` -/\n%s\n' % (f, d)
            names = ', '.join('%d %s' % (x, l.names[x]) for x in sorted(l.names))
            t += '/-- `%s`, %s:%d-%d' % (f, l.file, l.line, l.end)
            if names:
                t += '; variables: %s' % names
            t += ' -/\ndef %s : Fn := ⟨%d,\n  %s⟩\n\n' % (f, l.arity, b)
        t += 'end Faest.Leak.%s\n' % NAME
        write(os.path.join(model, m + '.lean'), t)
    t = HEAD % 'The program.' + ('import Verif.Model.Leak.Prog\n' if BASE else '')
    t += ''.join('import Verif.Model.Leak.%s.%s\n' % (NAME, m) for m in mods)
    t += '\nnamespace Faest.Leak\n\n/-- All functions reached from the entries, in the order of their numbers.'
    if BASE:
        t += '\nThose which are the same as in `prog`, or which are not reached in this build, are from there.'
    t += ' -/\ndef %s : List Fn := [\n  ' % prog
    t += ',\n  '.join('%s.%s' % (NAME if f in mine else 'Prog', f) for f in ids) + ']\n\nend Faest.Leak\n'
    write(os.path.join(OUT, 'Model', 'Leak', NAME + '.lean'), t)
    # certificate
    used, order = set(), []

    def go(r):
        if id(r) in used:
            return
        used.add(id(r))
        for u in r.uses.values():
            go(u)
        order.append(r)
    for e in entries():
        go(instance(e, entry_keys(e)))
    sigs, seen = [], set()
    for r in order:
        n = LOWERED[r.f].arity
        q = (r.f, tuple(map(tyof, r.vars)), tyof(r.ret))
        if q not in seen:
            seen.add(q)
            sigs.append(q)
    for k in (B('hi'), B('lo'), B('out'), SIGK):
        row(k)
    globs = [row(GLOBKEY.get(g, ('b', 'lo'))) for g in GLOBIX]
    count, names = {}, []
    t = HEAD % 'Certificate for the checker of Proofs/Leak/Check.lean.'
    t += 'import Verif.Proofs.Leak.Check\nimport Verif.Model.Leak.Prog.Ids\n'
    if BASE:
        t += 'import Verif.Model.Leak.%s.Ids\n' % NAME
    t += '\nnamespace Faest.Leak.%s\n\nopen Ty\n\n' % ns
    for f, vs, ret in sigs:
        n = count[f] = count.get(f, 0) + 1
        n = '%s.t%d' % (f, n)
        names.append(n)
        t += 'def %s : Sig := ⟨%s.Id.%s, [%s], %s⟩\n' % (n, NAME if BASE and f not in BASE['ids'] else 'Prog', f, ', '.join(vs), ret)
    t += '\ndef recs : List (List Ty) := [\n  ' + ',\n  '.join('[%s]' % ', '.join(r) for r in RECS) + ']\n'
    t += '\ndef globs : List Nat := [%s]\n' % ', '.join(map(str, globs))
    for n, k in (('rHi', B('hi')), ('rLo', B('lo')), ('rOut', B('out')), ('rSig', SIGK)):
        t += '\ndef %s : Nat := %d\n' % (n, row(k))
    parts = [[]]
    w = 0
    for n, (f, vs, ret) in zip(names, sigs):
        c = size(LOWERED[f].body)
        if w + c > 3000 and parts[-1]:
            parts.append([])
            w = 0
        parts[-1].append(n)
        w += c
    for i, p in enumerate(parts):
        t += '\ndef part%d : List Sig := [\n  %s]\n' % (i, ', '.join(p))
    ps = ['%s.part%d' % (ns, i) for i in range(len(parts))]
    t += '\nend %s\n\ndef %s : Cert := ⟨%s.recs, %s.globs,\n  %s⟩\n' % (ns, cert, ns, ns, ' ++ '.join(ps))
    t += '\nend Faest.Leak\n'
    write(os.path.join(OUT, 'Proofs', 'Leak', CERT + '.lean'), t)
    for i, p in enumerate(ps):
        t = HEAD % ('Part %d of the certificate is checked by evaluation in the kernel.' % i)
        t += 'import Verif.Model.Leak.%s\nimport Verif.Proofs.Leak.%s\n\nnamespace Faest.Leak\n\n' % (NAME, CERT)
        t += 'theorem %s_ok : okAll %s %s %s = true := by decide +kernel\n\nend Faest.Leak\n' % (p, cert, prog, p)
        write(os.path.join(OUT, *pdir.split('.'), 'Part%d.lean' % i), t)
    t = HEAD % 'The certificate is right.' + ''.join('import Verif.%s.Part%d\n' % (pdir, i) for i in range(len(parts)))
    t += '\nnamespace Faest.Leak\n\ntheorem %s_ok : %s.ok %s = true := by\n  have e : %s.sigs = ' % (cert, cert, prog, cert)
    t += ' ++ '.join(ps) + ' := rfl\n'
    t += '  show okAll %s %s %s.sigs = true\n  rw [e]\n  simp only [okAll_append, ' % (cert, prog, cert)
    t += ', '.join(p + '_ok' for p in ps) + ', Bool.and_self]\n\nend Faest.Leak\n'
    write(os.path.join(OUT, 'Proofs', 'Leak', CERT + 'Ok.lean'), t)
    print(NAME, len(LOWERED), 'functions', len(mine), 'of them here', len(sigs), 'typings', len(RECS), 'records', len(parts), 'parts')


def size(b):
    return sum(1 + sum(size(y) for y in s[1:] if isinstance(y, list) and s[0] != 'call') for s in b)


if __name__ == '__main__':
    if len(sys.argv) == 3:
        import tempfile
        state = os.path.join(tempfile.mkdtemp(), 'state')
        for b in BUILDS:
            subprocess.run([sys.executable, os.path.abspath(__file__), REPO, OUT, b, state], check=True)
        sys.exit()
    if NAME != 'Prog':
        with _open(STATE, 'rb') as h:
            BASE = pickle.load(h)
        GLOBIX.update(BASE['globs'])
    front()
    lower(entries())
    for e in entries():
        instance(e, entry_keys(e))
    for p in PROBLEMS:
        print(p)
    lean()
