#!/usr/bin/env python3
"""Translate the C files of /repo into Lean definitions over Verif/Model/CSem.lean.

usage: c2lean.py REPO OUTDIR [words]

The C text is read, comments are removed, the conditionals of the preprocessor are resolved with the symbols in
DEFINED defined and all others undefined, and the macros in the files listed in MACRO_FILES are expanded.  Every
function body becomes one Lean definition of the same name in the namespace Faest.Gen.  The translation is described
in DESIGN.md ("Translated code").

With `words` the calls of the functions of fields.h, fields.c and compat.h become calls of the interface
Verif/Model/FImpl.lean; the namespace is then Faest.GenW.
"""
import re
import sys
import os

REPO, OUT, MODE = (sys.argv + ['', '', ''])[1:4]
NS = 'GenW' if MODE == 'words' else 'Gen'

# ---------------------------------------------------------------- preprocessor

SHORT_CIRCUIT = False    # the right operand of && and || has its effects only if it is evaluated
DEFINED = set()          # HAVE_OPENSSL, FAEST_TESTS, FAEST_IS_BIG_ENDIAN, ... are undefined
MACRO_FILES = ['macros.h', 'instances.h', 'utils.h', 'aes.h', 'fields.h']
# macros with an empty or fixed expansion whatever the compiler
FIXED = {'FAEST_BEGIN_C_DECL': '', 'FAEST_END_C_DECL': '', 'ATTR_CONST': '', 'ATTR_PURE': '',
         'ATTR_ALWAYS_INLINE': '', 'ATTR_ARTIFICIAL': '', 'FAEST_CALLING_CONVENTION': '',
         'static_assert': None, 'NULL': '((void*)0)', 'true': None, 'false': None}
SKIP_MACROS = {'BF_VALUE', 'BF128C', 'BF192C', 'BF256C', 'bf128_add', 'bf192_add', 'bf256_add',
               'bf128_mul_bit', 'bf192_mul_bit', 'bf256_mul_bit', 'faest_declassify'}

TOK = re.compile(r'''\s*(?:(0[xX][0-9a-fA-F]+[uUlL]*|\d+[uUlL]*)|([A-Za-z_]\w*)|("(?:[^"\\]|\\.)*")|'''
                 r'''(<<=|>>=|\+\+|--|->|<<|>>|<=|>=|==|!=|&&|\|\||\+=|-=|\*=|/=|%=|&=|\|=|\^=|##|[-+*/%&|^~!<>=?:;,.(){}\[\]\#]))''')


def strip_comments(s):
    def rep(m):
        t = m.group(0)
        return '\n' * t.count('\n') if t.startswith('/') else t
    return re.sub(r'"(?:[^"\\\n]|\\.)*"|/\*.*?\*/|//[^\n]*', rep, s, flags=re.S)


def tokenize(s, line0=1):
    out, pos, line = [], 0, line0
    while True:
        m = re.compile(r'\s*').match(s, pos)
        line += s.count('\n', pos, m.end())
        pos = m.end()
        if pos >= len(s):
            return out
        m = TOK.match(s, pos)
        if not m:
            raise SyntaxError('line %d: %r' % (line, s[pos:pos + 30]))
        if m.group(1):
            out.append(('num', m.group(1), line))
        elif m.group(2):
            out.append(('id', m.group(2), line))
        elif m.group(3):
            out.append(('str', m.group(3), line))
        else:
            out.append(('op', m.group(4), line))
        pos = m.end()


class Macros:
    def __init__(self):
        self.m = {}

    def define(self, text):
        m = re.match(r'([A-Za-z_]\w*)(\(([^)]*)\))?\s*(.*)$', text, re.S)
        name, params, body = m.group(1), m.group(3), m.group(4)
        if name in FIXED or name in SKIP_MACROS:
            return
        toks = tokenize(body)
        if name in self.m:                       # first definition counts; must agree
            return
        self.m[name] = ([p.strip() for p in params.split(',')] if params is not None else None, toks)

    def expand(self, toks, hide=frozenset()):
        out, i = [], 0
        while i < len(toks):
            k, v, ln = toks[i]
            if k == 'id' and v in FIXED and FIXED[v] is not None:
                out += [(a, b, ln) for a, b, _ in tokenize(FIXED[v])]
                i += 1
                continue
            if k == 'id' and v in self.m and v not in hide:
                params, body = self.m[v]
                if params is None:
                    out += self.expand([(a, b, ln) for a, b, _ in body], hide | {v})
                    i += 1
                    continue
                if i + 1 < len(toks) and toks[i + 1][1] == '(':
                    depth, j, args, cur = 0, i + 1, [], []
                    while True:
                        t = toks[j]
                        if t[1] == '(':
                            depth += 1
                            if depth > 1:
                                cur.append(t)
                        elif t[1] == ')':
                            depth -= 1
                            if depth == 0:
                                args.append(cur)
                                break
                            cur.append(t)
                        elif t[1] == ',' and depth == 1:
                            args.append(cur)
                            cur = []
                        else:
                            cur.append(t)
                        j += 1
                    args = [self.expand(a, hide) for a in args]
                    res = []
                    for a, b, _ in body:
                        if a == 'id' and b in params:
                            res += [(x, y, ln) for x, y, _ in args[params.index(b)]]
                        else:
                            res.append((a, b, ln))
                    out += self.expand(res, hide | {v})
                    i = j + 1
                    continue
            out.append(toks[i])
            i += 1
        return out


def cond_value(expr):
    e = re.sub(r'defined\s*\(\s*(\w+)\s*\)|defined\s+(\w+)', lambda m: '1' if (m.group(1) or m.group(2)) in DEFINED else '0', expr)
    e = re.sub(r'\b[A-Z]+_CHECK\([^)]*\)|__has_\w+\([^)]*\)', '0', e)
    e = e.replace('&&', ' and ').replace('||', ' or ').replace('!', ' not ')
    e = re.sub(r'\b(?!and\b|or\b|not\b)[A-Za-z_]\w*\b', '0', e)
    e = re.sub(r'\b(\d+)[uUlL]+\b', r'\1', e)
    return bool(eval(e))


def preprocess(path, macros, emit=True, subst=None):
    """resolve conditionals, record macros, return tokens; `subst` holds the values of the @NAME@ of a template"""
    text = open(path).read()
    if subst is not None:
        text = re.sub(r'@(\w+)@', lambda m: subst[m.group(1)], text)
    lines = strip_comments(text).split('\n')
    out, stack, i = [], [], 0
    while i < len(lines):
        ln = lines[i]
        start = i
        if ln.lstrip().startswith('#'):
            while ln.endswith('\\'):
                i += 1
                ln = ln[:-1] + ' ' + lines[i]
            d = ln.lstrip()[1:].strip()
            m = re.match(r'(\w+)\s*(.*)$', d, re.S)
            kw, rest = m.group(1), m.group(2)
            act = all(s[0] for s in stack)
            if kw in ('if', 'ifdef', 'ifndef'):
                v = act and (cond_value(rest) if kw == 'if' else ((rest.strip() in DEFINED) == (kw == 'ifdef')))
                stack.append([v, v])
            elif kw == 'elif':
                s = stack[-1]
                v = (not s[1]) and cond_value(rest)
                s[0], s[1] = v, s[1] or v
            elif kw == 'else':
                s = stack[-1]
                s[0], s[1] = not s[1], True
            elif kw == 'endif':
                stack.pop()
            elif kw == 'define' and act:
                macros.define(rest)
            i += 1
            continue
        if all(s[0] for s in stack) and emit:
            out += tokenize(ln, start + 1)
        i += 1
    return out


# ---------------------------------------------------------------- parameters (meson.build)

CONSTS = {}
SETS = []                # the values of every parameter set


def read_meson():
    cur = {}
    for ln in open(os.path.join(REPO, 'meson.build')):
        m = re.match(r"(param_\w+)\.set\('(\w+)',\s*'?(\w+)'?\)", ln)
        if m:
            cur.setdefault(m.group(1), {})[m.group(2)] = m.group(3)
    for _, d in cur.items():
        SETS.append(d)
        for k, v in d.items():
            if v.isdigit():
                CONSTS['FAEST_%s_%s' % (d['PARAM'], k)] = int(v)


ENUMS = {'FAEST_' + p: '(some ParamId.p%s)' % p.replace('_', '') for p in
         ['128S', '128F', '192S', '192F', '256S', '256F', 'EM_128S', 'EM_128F', 'EM_192S', 'EM_192F', 'EM_256S', 'EM_256F']}

# ---------------------------------------------------------------- types

BASE = {'uint8_t': 'u8', 'bf8_t': 'u8', 'uint16_t': 'u16', 'uint32_t': 'u32', 'unsigned': 'u32', 'uint64_t': 'u64',
        'size_t': 'u64', 'char': 'u8', 'int': 'int', 'bool': 'bool', 'void': 'void', 'bf64_t': ('bf', 64), 'bf128_t': ('bf', 128),
        'bf192_t': ('bf', 192), 'bf256_t': ('bf', 256),
        'faest_paramset_t': ('struct', 'params'),
        'zk_hash_128_ctx': ('struct', 'zk', 128), 'zk_hash_192_ctx': ('struct', 'zk', 192),
        'zk_hash_256_ctx': ('struct', 'zk', 256),
        'H0_context_t': ('struct', 'hctx'), 'H1_context_t': ('struct', 'hctx'), 'H2_context_t': ('struct', 'hctx'),
        'H3_context_t': ('struct', 'hctx'), 'H0_context_x4_t': ('struct', 'hctx4'),
        'tree_t': ('struct', 'tree'), 'vec_com_t': ('struct', 'vc'), 'vec_com_rec_t': ('struct', 'vcr'),
        'aes_word_t': ('arr', 'u8', 4), 'aes_round_key_t': ('arr', ('arr', 'u8', 4), 8),
        'aes_block_t': ('arr', ('arr', 'u8', 4), 8),
        'aes_round_keys_t': ('arr', ('arr', ('arr', 'u8', 4), 8), 15)}
PTR8 = ('ptr', 'u8')
FIELDS = {('struct', 'tree'): {'nodes': PTR8, 'numNodes': 'u64', 'numLeaves': 'u64'},
          ('struct', 'vc'): {'h': PTR8, 'k': PTR8, 'com': PTR8, 'sd': PTR8},
          ('struct', 'vcr'): {'h': PTR8, 'k': PTR8, 'com': PTR8, 's': PTR8}}
for _n in (128, 192, 256):
    FIELDS[('struct', 'zk', _n)] = {'h0': ('bf', _n), 'h1': ('bf', _n), 's': ('bf', _n), 't': ('bf', 64), 'sd': PTR8}
PARAM_FIELDS = ['lambda', 'Nwd', 'Ske', 'R', 'Senc', 'l', 'Lke', 'Lenc', 'tau', 'k0', 'k1', 't0', 't1', 'sigSize', 'pkSize']


def is_struct(t):
    return isinstance(t, tuple) and t[0] == 'struct'


def is_ptr(t):
    return isinstance(t, tuple) and t[0] in ('ptr', 'arr')


def is_int(t):
    return t in ('u8', 'u16', 'u32', 'u64', 'int', 'bool')


def flat(t):
    if isinstance(t, tuple) and t[0] == 'arr':
        l, n = flat(t[1])
        return l, n * t[2]
    return t, 1


def leantype(t):
    if t == 'u8':
        return 'Byte'
    if t == 'bool':
        return 'Bool'
    if is_int(t):
        return 'Nat'
    if t == 'void':
        return 'Unit'
    if t[0] == 'bf':
        return 'BF %d' % t[1]
    if is_ptr(t):
        return 'CPtr'
    if t == ('struct', 'params'):
        return 'Params'
    if t[0] == 'struct' and t[1] == 'zk':
        return 'ZkC %d' % t[2]
    return {'hctx': 'I.Ctx', 'hctx4': 'I.Ctx4', 'tree': 'TreeC', 'vc': 'VecComC', 'vcr': 'VecComRecC'}[t[1]]


def sizeof(t):
    if t in ('u8', 'bool'):
        return 1
    if t == 'u16':
        return 2
    if t in ('u32', 'int'):
        return 4
    if t == 'u64':
        return 8
    if t[0] == 'arr':
        return sizeof(t[1]) * t[2]
    if t[0] == 'ptr':
        return 8
    if t[0] == 'bf':
        return {64: 8, 128: 16, 192: 32, 256: 32}[t[1]]
    if t in (('struct', 'vc'), ('struct', 'vcr')):
        return 32
    raise TypeError('sizeof %r' % (t,))


# ---------------------------------------------------------------- parser

class Parser:
    fall = False           # whether a case of a switch may run into the next

    def __init__(self, toks, fname):
        self.t, self.i, self.f = toks, 0, fname

    def peek(self, k=0):
        return self.t[self.i + k][1] if self.i + k < len(self.t) else None

    def kind(self, k=0):
        return self.t[self.i + k][0] if self.i + k < len(self.t) else None

    def line(self):
        return self.t[min(self.i, len(self.t) - 1)][2]

    def next(self):
        v = self.t[self.i][1]
        self.i += 1
        return v

    def eat(self, v):
        if self.peek() == v:
            self.i += 1
            return True
        return False

    def need(self, v):
        if not self.eat(v):
            raise SyntaxError('%s:%d: expected %r, got %r' % (self.f, self.line(), v, self.peek()))

    def is_type(self, k=0):
        return self.kind(k) == 'id' and (self.peek(k) in BASE or self.peek(k) in ('const', 'static', 'inline', 'struct', 'volatile'))

    def base_type(self):
        t = None
        while True:
            p = self.peek()
            if p in ('const', 'static', 'inline', 'volatile'):
                self.next()
            elif p == 'unsigned':
                self.next()
                if self.eat('char'):
                    t = 'u8'
                elif self.eat('long'):
                    self.need('long')
                    t = 'u64'
                else:
                    self.eat('int')
                    t = 'u32'
            elif t is None and p in BASE:
                self.next()
                t = BASE[p]
            else:
                return t

    def pointers(self, t):
        while True:
            if self.eat('*'):
                t = ('ptr', t)
            elif self.peek() == 'const':
                self.next()
            else:
                return t

    def array_suffix(self, t):
        dims = []
        while self.eat('['):
            dims.append(self.expr())
            self.need(']')
        for d in reversed(dims):
            t = ('arr', t, const_eval(d))
        return t

    # ---- top level
    def translation_unit(self):
        funs = []
        while self.i < len(self.t):
            if self.eat(';'):
                continue
            if self.peek() == 'static_assert':
                self.next()
                self.need('(')
                e = self.expr()
                assert const_eval(e) != 0, 'static_assert fails'
                self.need(',')
                self.next()
                self.need(')')
                self.need(';')
                continue
            if self.peek() == 'typedef':
                depth = 0
                while True:
                    v = self.next()
                    depth += v == '{'
                    depth -= v == '}'
                    if v == ';' and depth == 0:
                        break
                continue
            line = self.line()
            t = self.pointers(self.base_type())
            name = self.next()
            if self.peek() == '(':
                self.next()
                params = []
                while not self.eat(')'):
                    if self.peek() == 'void' and self.peek(1) == ')':
                        self.next()
                        continue
                    pt = self.pointers(self.base_type())
                    pn = self.next()
                    pt = self.array_suffix(pt)
                    params.append((pn, pt))
                    self.eat(',')
                if self.eat(';'):
                    continue
                body = self.block()
                funs.append(('fun', name, t, params, body, line, self.t[self.i - 1][2]))
            else:
                t = self.array_suffix(t)
                self.need('=')
                self.need('{')
                vals = []
                while not self.eat('}'):
                    vals.append(self.assign())
                    self.eat(',')
                self.need(';')
                funs.append(('table', name, t, [const_eval(v) for v in vals], line, self.t[self.i - 1][2]))
        return funs

    def block(self):
        self.need('{')
        out = []
        while not self.eat('}'):
            out += self.stmt()
        return out

    def stmt_as_block(self):
        if self.peek() == '{':
            return self.block()
        return self.stmt()

    def decl(self):
        base = self.base_type()
        out = []
        while True:
            t = self.pointers(base)
            n = self.next()
            t = self.array_suffix(t)
            init = None
            if self.eat('='):
                if self.peek() == '{':
                    self.need('{')
                    vs = [self.assign()]
                    while self.eat(','):
                        vs.append(self.assign())
                    self.need('}')
                    if len(vs) > 1:
                        init = ('list', vs)
                    else:
                        assert const_eval(vs[0]) == 0
                        init = ('zero',)
                else:
                    init = self.assign()
            out.append(('decl', n, t, init))
            if not self.eat(','):
                break
        return out

    def stmt(self):
        p = self.peek()
        if p == '{':
            return [('block', self.block())]
        if p == ';':
            self.next()
            return []
        if p == 'if':
            self.next()
            self.need('(')
            c = self.expr()
            self.need(')')
            a = self.stmt_as_block()
            b = self.stmt_as_block() if self.eat('else') else []
            return [('if', c, a, b)]
        if p == 'for':
            self.next()
            self.need('(')
            init = []
            if self.is_type():
                init = self.decl()
            elif self.peek() != ';':
                init = [('expr', self.expr())]
            self.need(';')
            c = self.expr() if self.peek() != ';' else None
            self.need(';')
            step = self.comma_list() if self.peek() != ')' else []
            self.need(')')
            return [('for', init, c, step, self.stmt_as_block())]
        if p == 'while':
            self.next()
            self.need('(')
            c = self.expr()
            self.need(')')
            return [('for', [], c, [], self.stmt_as_block())]
        if p == 'do':
            self.next()
            b = self.block()
            self.need('while')
            self.need('(')
            c = self.expr()
            self.need(')')
            self.need(';')
            if c[0] == 'num':
                assert c[1] == 0
                return [('block', b)]
            # one variable says whether the body runs again
            go = lambda n: [('expr', ('assign', ('var', 'again'), ('num', n, 'int')))]
            return [('block', [('decl', 'again', 'u32', ('num', 1, 'int')),
                               ('for', [], ('var', 'again'), [], b + [('if', c, go(1), go(0))])])]
        if p == 'switch':
            self.next()
            self.need('(')
            e = self.expr()
            self.need(')')
            self.need('{')
            cases, labels, cur, through = [], [], None, []
            while not self.eat('}'):
                if self.peek() in ('case', 'default'):
                    if cur is not None:
                        if not (cur and (cur[-1][0] == 'break' or Fn.returns(None, cur))):
                            assert self.fall, 'fall through at %d' % self.line()
                            through.append(len(cases))
                        cases.append((labels, cur))
                        labels, cur = [], None
                    if self.next() == 'case':
                        labels.append(self.expr())
                    else:
                        labels.append(None)
                    self.need(':')
                    if self.peek() not in ('case', 'default'):
                        cur = []
                else:
                    cur += self.stmt()
            cases.append((labels, cur))
            for k in reversed(through):
                cases[k] = (cases[k][0], cases[k][1] + cases[k + 1][1])
            return [('switch', e, cases)]
        if p == 'return':
            self.next()
            e = None if self.peek() == ';' else self.expr()
            self.need(';')
            return [('return', e)]
        if p == 'break':
            self.next()
            self.need(';')
            return [('break',)]
        if p == 'continue':
            self.next()
            self.need(';')
            return [('continue',)]
        if self.is_type():
            d = self.decl()
            self.need(';')
            return d
        es = self.comma_list()
        self.need(';')
        return [('expr', e) for e in es if not (e[0] == 'call' and e[1] == 'faest_declassify')]

    def comma_list(self):
        out = [self.assign()]
        while self.eat(','):
            out.append(self.assign())
        return out

    def expr(self):
        return self.assign()

    def assign(self):
        l = self.ternary()
        p = self.peek()
        if p == '=':
            self.next()
            return ('assign', l, self.assign())
        if p in ('+=', '-=', '*=', '/=', '%=', '&=', '|=', '^=', '<<=', '>>='):
            self.next()
            return ('assign', l, ('bin', p[:-1], l, self.assign()))
        return l

    def ternary(self):
        c = self.binary(0)
        if self.eat('?'):
            a = self.assign()
            self.need(':')
            b = self.ternary()
            return ('cond', c, a, b)
        return c

    PREC = [['||'], ['&&'], ['|'], ['^'], ['&'], ['==', '!='], ['<', '>', '<=', '>='], ['<<', '>>'], ['+', '-'],
            ['*', '/', '%']]

    def binary(self, lv):
        if lv == len(self.PREC):
            return self.unary()
        l = self.binary(lv + 1)
        while self.kind() == 'op' and self.peek() in self.PREC[lv]:
            op = self.next()
            l = ('bin', op, l, self.binary(lv + 1))
        return l

    def unary(self):
        p = self.peek()
        if self.kind() == 'op':
            if p in ('-', '~', '!', '*', '&', '+'):
                self.next()
                return ('un', p, self.unary())
            if p in ('++', '--'):
                self.next()
                l = self.unary()
                return ('assign', l, ('bin', p[0], l, ('num', 1, 'int')))
            if p == '(' and self.is_type(1):
                self.next()
                t = self.pointers(self.base_type())
                self.need(')')
                return ('cast', t, self.unary())
        if p == 'sizeof':
            self.next()
            self.need('(')
            if self.is_type():
                t = self.pointers(self.base_type())
                self.need(')')
                return ('sizeof_t', t)
            e = self.expr()
            self.need(')')
            return ('sizeof_e', e)
        return self.postfix()

    def postfix(self):
        e = self.primary()
        while True:
            if self.eat('['):
                i = self.expr()
                self.need(']')
                e = ('index', e, i)
            elif self.eat('('):
                args = []
                while not self.eat(')'):
                    args.append(self.assign())
                    self.eat(',')
                e = ('call', e[1], args)
            elif self.eat('.'):
                e = ('member', e, self.next())
            elif self.eat('->'):
                e = ('member', ('un', '*', e), self.next())
            elif self.peek() in ('++', '--'):
                op = self.next()
                e = ('assign', e, ('bin', op[0], e, ('num', 1, 'int')))
            else:
                return e

    def primary(self):
        k = self.kind()
        v = self.next()
        if k == 'num':
            s = v.rstrip('uUlL')
            suf = v[len(s):].lower()
            n = int(s, 0)
            ty = 'int' if n < 2 ** 31 else ('u32' if n < 2 ** 32 else 'u64')
            if 'u' in suf:
                ty = 'u32' if n < 2 ** 32 else 'u64'
            if 'l' in suf:
                ty = 'u64'
            return ('num', n, ty)
        if k == 'id':
            if v in CONSTS:
                return ('num', CONSTS[v], 'int')
            return ('var', v)
        if v == '(':
            e = self.expr()
            self.need(')')
            return e
        raise SyntaxError('%s:%d: unexpected %r' % (self.f, self.line(), v))


def const_eval(e):
    k = e[0]
    if k == 'num':
        return e[1]
    if k == 'bin':
        a, b = const_eval(e[2]), const_eval(e[3])
        return {'+': lambda: a + b, '-': lambda: a - b, '*': lambda: a * b, '/': lambda: a // b, '%': lambda: a % b,
                '==': lambda: int(a == b), '!=': lambda: int(a != b), '<<': lambda: a << b, '>>': lambda: a >> b,
                '|': lambda: a | b, '&': lambda: a & b, '^': lambda: a ^ b, '<': lambda: int(a < b),
                '>': lambda: int(a > b), '>=': lambda: int(a >= b), '<=': lambda: int(a <= b)}[e[1]]()
    if k == 'sizeof_t':
        return sizeof(e[1])
    raise ValueError('not constant: %r' % (e,))


# ---------------------------------------------------------------- translation

LEAN_KW = {'in', 'at', 'end', 'from', 'fun', 'let', 'open', 'by', 'do', 'if', 'then', 'else', 'match', 'with', 'where',
           'def', 'have', 'show', 'prefix', 'set_option', 'R_', 'λ'}


def lname(n):
    return n + '_' if n in LEAN_KW or n in ('pure', 'out_') else n


class Ext:
    """external functions: (lean name, return type, parameter types, effect); `io` parameters are structs by reference"""
    pass


def bfname(n, f):
    return f


EXT = {}
for _n in (64, 128, 192, 256):
    B = ('bf', _n)
    EXT['bf%d_add' % _n] = ('bfAdd', B, [B, B], False)
    EXT['bf%d_mul' % _n] = ('bfMul', B, [B, B], False)
    EXT['bf%d_mul_64' % _n] = ('bfMul64', B, [B, ('bf', 64)], False)
    EXT['bf%d_mul_bit' % _n] = ('bfMulBit', B, [B, 'u8'], False)
    EXT['bf%d_from_bit' % _n] = ('(bfFromBit (n := %d))' % _n, B, ['u8'], False)
    EXT['bf%d_zero' % _n] = ('(bfZero : BF %d)' % _n, B, [], False)
    EXT['bf%d_one' % _n] = ('(bfOne : BF %d)' % _n, B, [], False)
    EXT['bf%d_load' % _n] = ('bf_load %d' % _n, B, [PTR8], True)
    EXT['bf%d_store' % _n] = ('bf_store', 'void', [PTR8, B], True)
    EXT['bf%d_byte_combine' % _n] = ('bf_byte_combine %d' % _n, B, [('ptr', B)], True)
    EXT['bf%d_byte_combine_bits' % _n] = ('bf_byte_combine_bits %d' % _n, B, ['u8'], True)
    EXT['bf%d_sum_poly' % _n] = ('bf_sum_poly %d' % _n, B, [('ptr', B)], True)
EXT['bf8_mul'] = ('bf8Mul', 'u8', ['u8', 'u8'], False)
EXT['bf8_inv'] = ('bf8_inv', 'u8', ['u8'], False)
EXT['bf8_load'] = ('bf8_load', 'u8', [PTR8], True)
EXT['bf8_store'] = ('bf8_store', 'void', [PTR8, 'u8'], True)
EXT['rotr8'] = ('rotr8', 'u8', ['u8', 'u32'], False)
EXT['parity8'] = ('parity8', 'u8', ['u8'], False)
if MODE == 'words':
    for _f, (_l, _r, _p, _e) in list(EXT.items()):
        _m = re.match(r'bf(64|128|192|256)_(\w+)$', _f)
        EXT[_f] = ('F.f%s.%s' % _m.groups() if _m else 'F.' + _f, _r, _p, True)
HCTX = (('struct', 'hctx'), ('struct', 'hctx4'))
HC, HC4 = ('ptr', ('struct', 'hctx')), ('ptr', ('struct', 'hctx4'))
for _h in 'H0 H1 H2 H3'.split():
    EXT[_h + '_init'] = ('I.%s_init' % _h, 'void', [HC, 'u32'], True)
    EXT[_h + '_update'] = ('I.%s_update' % _h, 'void', [HC, PTR8, 'u64'], True)
EXT['H0_final'] = ('I.H0_final', 'void', [HC, PTR8, 'u64', PTR8, 'u64'], True)
EXT['H1_final'] = ('I.H1_final', 'void', [HC, PTR8, 'u64'], True)
EXT['H2_final'] = ('I.H2_final', 'void', [HC, PTR8, 'u64'], True)
EXT['H3_final'] = ('I.H3_final', 'void', [HC, PTR8, 'u64', PTR8], True)
EXT['H0_x4_init'] = ('I.H0_x4_init', 'void', [HC4, 'u32'], True)
EXT['H0_x4_update'] = ('I.H0_x4_update', 'void', [HC4, PTR8, PTR8, PTR8, PTR8, 'u64'], True)
EXT['H0_x4_final'] = ('I.H0_x4_final', 'void', [HC4] + [PTR8] * 4 + ['u64'] + [PTR8] * 4 + ['u64'], True)

EXT['rand_bytes'] = ('rand_bytes R', 'int', [PTR8, 'u64'], True)
EXT['faest_get_paramset'] = ('Gen.faest_get_paramset' if MODE == 'words' else 'faest_get_paramset', ('struct', 'params'), ['enum'], False)

FUNS = {}      # name -> (ret, params, inout indices, extra parameters: F (fields), I (hash functions), R (random bytes))
TABLES = {}
ORDER = []


def inout_params(name, params, body):
    """struct pointer parameters used as pointers to one structure"""
    idx = []
    s = repr(body)
    for k, (n, t) in enumerate(params):
        if t[0] == 'ptr' and is_struct(t[1]) and t[1] != ('struct', 'params'):
            if "('index', ('var', '%s')" % n in s:
                continue
            idx.append(k)
    return idx


class V:
    """value: Lean expression, C type, range (lo, hi) for int if known, literal value if known"""

    def __init__(self, e, t, rng=None, lit=None, atom=False):
        self.e, self.t, self.rng, self.lit = e, t, rng, lit

    def p(self):
        return par(self.e)


def par(e):
    if re.match(r'^[\w.]+$', e) or (e.startswith('(') and match_paren(e)):
        return e
    return '(' + e + ')'


def match_paren(e):
    d = 0
    for i, ch in enumerate(e):
        d += ch == '('
        d -= ch == ')'
        if d == 0:
            return i == len(e) - 1
    return False


class Fn:
    def __init__(self, name, ret, params, body, fname):
        self.name, self.ret, self.params, self.body, self.f = name, ret, params, body, fname
        self.tmp = 0
        self.lines = []
        self.ind = 1
        self.scope = {}          # C name -> type
        self.assigned = set()
        self.inout = [params[i][0] for i in FUNS[name][2]]
        self.stack = []          # list of lists of stack arrays
        self.loopstack = []

    def err(self, msg):
        raise TypeError('%s: %s: %s' % (self.f, self.name, msg))

    def out(self, s):
        self.lines.append('  ' * self.ind + s)

    def fresh(self):
        self.tmp += 1
        return 'e%d' % self.tmp

    # ---- conversions
    def promote(self, v):
        if v.t == 'u8':
            if v.lit is not None:
                return V(str(v.lit), 'int', (v.lit, v.lit), v.lit)
            return V('%s.toNat' % v.p(), 'int', v.rng or (0, 255))
        if v.t == 'u16':
            return V(v.e, 'int', v.rng or (0, 65535), v.lit)
        if v.t == 'bool':
            if v.lit is not None:
                return V(str(v.lit), 'int', (v.lit, v.lit), v.lit)
            return V('(if %s then 1 else 0)' % self.prop(v), 'int', (0, 1))
        return v

    def conv(self, v, t):
        """convert to type t (as if by assignment)"""
        if v.t == t:
            return v
        if isinstance(v.t, tuple) and v.t[0] == 'ref' and t[0] == 'ptr':
            return V(v.e, t)
        if t == 'bool' and (is_int(v.t) or is_ptr(v.t)):
            return V('decide %s' % par(self.prop(v)), 'bool')
        if is_int(t) and is_int(v.t):
            if v.t == 'bool' or (v.t == 'u8' and t != 'u8') or v.t == 'u16':
                v = self.promote(v)
            if t == 'u8':
                if v.lit is not None and v.lit >= 0:
                    return V('(%d : Byte)' % (v.lit % 256), 'u8', None, v.lit % 256)
                return V('BitVec.ofNat 8 %s' % v.p(), 'u8')
            if t == 'u32':
                if v.t == 'u64':
                    return V('%s %% U32' % v.p(), 'u32', None, v.lit)
                return V(v.e, 'u32', None, v.lit)       # int: the pattern is the value mod 2^32
            if t == 'u64':
                if v.t == 'int':
                    if v.rng and v.rng[0] >= 0:
                        return V(v.e, 'u64', None, v.lit)
                    return V('sext %s' % v.p(), 'u64')
                return V(v.e, 'u64', None, v.lit)
            if t == 'int':
                if v.t == 'u32':
                    return V(v.e, 'int')
                self.err('conversion %r -> int' % v.t)
            if t == 'u16':
                self.err('to u16')
        if is_ptr(t) and is_ptr(v.t):
            return V(v.e, t)
        self.err('conversion %r -> %r (%s)' % (v.t, t, v.e))

    def prop(self, v):
        """the condition v != 0 as a proposition"""
        if v.t == 'bool':
            if v.lit is not None:
                return 'True' if v.lit else 'False'
            if v.e.startswith('decide '):
                return v.e[7:]
            return '%s = true' % v.e
        if is_ptr(v.t):
            return '%s.isSome = true' % v.p()
        if v.t == 'u8':
            return '%s ≠ 0' % v.e
        if v.e.startswith('(if ') and v.e.endswith(' then 1 else 0)') and match_paren(v.e):
            return v.e[4:-len(' then 1 else 0)')]
        return '%s ≠ 0' % v.e

    def usual(self, a, b):
        a, b = self.promote(a), self.promote(b)
        for t in ('u64', 'u32'):
            if a.t == t or b.t == t:
                return self.conv(a, t), self.conv(b, t), t
        return a, b, 'int'

    # ---- expressions
    def bind(self, e):
        n = self.fresh()
        self.out('let %s ← %s' % (n, e))
        return n

    def ev(self, e, want=None):
        k = e[0]
        if k == 'num':
            return V(str(e[1]), e[2], (e[1], e[1]), e[1])
        if k == 'var':
            n = e[1]
            if n == 'true' or n == 'false':
                return V(n, 'bool', None, 1 if n == 'true' else 0)
            if n in self.scope:
                if n not in self.assigned:
                    self.err('%s read before assignment' % n)
                return V(lname(n), self.scope[n])
            if n in TABLES:
                return V(n, TABLES[n])
            if n in ENUMS:
                return V(ENUMS[n], 'enum')
            self.err('unknown variable %s' % n)
        if k == 'cast':
            if e[1] == ('ptr', 'void'):
                assert e[2] == ('num', 0, 'int')
                return V('(none : CPtr)', ('ptr', 'void'))
            return self.conv(self.ev(e[2]), e[1])
        if k == 'sizeof_t':
            n = sizeof(e[1])
            return V(str(n), 'u64', (n, n), n)
        if k == 'sizeof_e':
            n = sizeof(self.scope[e[1][1]])
            return V(str(n), 'u64', (n, n), n)
        if k == 'call':
            return self.call(e[1], e[2])
        if k == 'cond':
            return self.cond(e)
        if k == 'un':
            return self.unary(e)
        if k == 'bin':
            return self.binop(e)
        if k in ('index', 'member'):
            lv = self.lval(e)
            return self.load(lv)
        self.err('expression %r' % (e,))

    def cond(self, e):
        c = self.ev(e[1])
        p = self.prop(c)
        saved, n0 = self.lines, self.tmp
        self.lines = []
        a = self.ev(e[2])
        la = self.lines
        self.lines = []
        b = self.ev(e[3])
        lb = self.lines
        self.lines = saved
        if is_int(a.t):
            a2, b2, t = self.usual(a, b)
            rng = None
            if t == 'int' and a2.rng and b2.rng:
                rng = (min(a2.rng[0], b2.rng[0]), max(a2.rng[1], b2.rng[1]))
        else:
            a2, b2, t, rng = a, b, a.t, None
        if not la and not lb:
            return V('(if %s then %s else %s)' % (p, a2.e, b2.e), t, rng)
        n = self.fresh()
        self.out('let %s ← (if %s then (do' % (n, p))
        self.lines += ['    ' + x for x in la]
        self.out('    pure %s)' % a2.p())
        self.out('  else (do')
        self.lines += ['    ' + x for x in lb]
        self.out('    pure %s))' % b2.p())
        return V(n, t, rng)

    def unary(self, e):
        op, x = e[1], e[2]
        if op == '&':
            lv = self.lval(x)
            if lv[0] == 'mem':
                return V(self.addr(lv), ('ptr', lv[3]))
            if lv[0] == 'var' and is_ptr(self.scope[lv[1]]) and self.scope[lv[1]][0] == 'arr':
                return V(lname(lv[1]), ('ptr', self.scope[lv[1]]))
            if lv[0] == 'var' and is_struct(self.scope[lv[1]]):
                return V(lname(lv[1]), ('ref', lv[1]))
            self.err('& %r' % (x,))
        if op == '*':
            return self.load(self.lval(e))
        v = self.ev(x)
        if op == '!':
            if v.t == 'bool' and v.lit is None:
                return V('decide (¬ %s)' % par(self.prop(v)), 'bool')
            p = self.prop(v)
            return V('(if ¬ %s then 1 else 0)' % par(p), 'int', (0, 1))
        v = self.promote(v)
        if op == '-':
            if v.lit is not None:
                if v.t == 'int':
                    return V(str((2 ** 32 - v.lit) % 2 ** 32), 'int', (-v.lit, -v.lit), None)
            w = 'U32' if v.t in ('u32', 'int') else 'U64'
            if v.t == 'int' and not (v.rng and v.rng[0] >= 0):
                self.err('negation')
            return V('(%s - %s) %% %s' % (w, v.p(), w), v.t, (-v.rng[1], -v.rng[0]) if v.rng else None)
        if op == '~':
            w = 'U64' if v.t == 'u64' else 'U32'
            return V('%s - 1 - %s' % (w, v.p()), v.t, (-v.rng[1] - 1, -v.rng[0] - 1) if v.rng else None)
        self.err('unary %s' % op)

    def scaled(self, n, iv):
        if iv.lit is not None:
            return str(n * iv.lit)
        return iv.e if n == 1 else '%d * %s' % (n, iv.p())

    def binop(self, e):
        op = e[1]
        if op in ('&&', '||'):
            a = self.ev(e[2])
            n = len(self.lines)
            b = self.ev(e[3])
            if len(self.lines) != n and SHORT_CIRCUIT:
                lb, self.lines = self.lines[n:], self.lines[:n]
                r = self.fresh()
                skip = 'pure %s' % ('false' if op == '&&' else 'true')
                self.out('let %s : Bool ← (if %s then' % (r, self.prop(a)) + (' (do' if op == '&&' else ' ' + skip))
                if op == '||':
                    self.out('  else (do')
                self.lines += ['    ' + l for l in lb]
                self.out('    pure (decide %s))' % par(self.prop(b)) + (')' if op == '||' else ''))
                if op == '&&':
                    self.out('  else %s)' % skip)
                return V(r, 'bool')
            # otherwise evaluated unconditionally: stricter than C
            return V('(if %s %s %s then 1 else 0)' % (par(self.prop(a)), '∧' if op == '&&' else '∨', par(self.prop(b))),
                     'int', (0, 1))
        a, b = self.ev(e[2]), self.ev(e[3])
        if is_ptr(a.t) or is_ptr(b.t):
            if op in ('==', '!='):
                x = a if b.e == '(none : CPtr)' else b
                assert '(none : CPtr)' in (a.e, b.e)
                pr = '%s.isSome = true' % x.p()
                return V('(if %s then 1 else 0)' % (pr if op == '!=' else '¬ (%s)' % pr), 'int', (0, 1))
            if op == '+' and is_ptr(a.t):
                n = flat(a.t[1])[1]
                return V('padd %s %s' % (a.p(), par(self.scaled(n, self.conv_idx(b)))), ('ptr', a.t[1]))
            if op == '-' and is_int(b.t):
                n = flat(a.t[1])[1]
                return V('psub %s %s' % (a.p(), par(self.scaled(n, self.conv_idx(b)))), ('ptr', a.t[1]))
            self.err('pointer %s' % op)
        if a.t == 'enum' or b.t == 'enum':
            return V('(if %s %s %s then 1 else 0)' % (a.e, '=' if op == '==' else '≠', b.e), 'int', (0, 1))
        if op in ('==', '!=') and a.t == 'bool' and b.t == 'bool' and b.lit is not None:
            pa = self.prop(a)
            pos = (b.lit == 1) == (op == '==')
            return V('(if %s then 1 else 0)' % (pa if pos else '¬ %s' % par(pa)), 'int', (0, 1))
        if op in ('<<', '>>'):
            a, b = self.promote(a), self.promote(b)
            if a.lit is not None and b.lit is not None:
                n = a.lit << b.lit if op == '<<' else a.lit >> b.lit
                if a.t == 'int' and n < 2 ** 31 and b.lit < 32:
                    return V(str(n), 'int', (n, n), n)
            w = {'int': 32, 'u32': 32, 'u64': 64}[a.t]
            inrange = (b.lit is not None and b.lit < w) or (b.rng and b.rng[0] >= 0 and b.rng[1] < w) or self.modrange(b, w)
            if op == '>>':
                if a.t == 'int' and not (a.rng and a.rng[0] >= 0):
                    self.err('>> of possibly negative int')
                if not inrange:
                    return V(self.bind('cshr %d %s %s' % (w, a.p(), b.p())), a.t, (0, a.rng[1]) if a.rng else None)
                return V('%s >>> %s' % (a.p(), b.p()), a.t, (0, a.rng[1]) if a.rng else None)
            if a.t == 'int':
                bmax = b.lit if b.lit is not None else (b.rng[1] if b.rng else self.modmax(b))
                if inrange and a.rng and bmax is not None and a.rng[0] >= 0 and (a.rng[1] << bmax) < 2 ** 31:
                    return V('%s <<< %s' % (a.p(), b.p()), 'int', (0, a.rng[1] << bmax))
                return V(self.bind('ishl %s %s' % (a.p(), b.p())), 'int', (0, 2 ** 31 - 1))
            if not inrange:
                return V(self.bind('cshl %d %s %s' % (w, a.p(), b.p())), a.t)
            return V('(%s <<< %s) %% U%d' % (a.p(), b.p(), w), a.t)
        a, b, t = self.usual(a, b)
        if op in ('==', '!=', '<', '>', '<=', '>='):
            if t == 'int' and op not in ('==', '!='):
                for x in (a, b):
                    if not (x.rng and x.rng[0] >= 0):
                        self.err('comparison of possibly negative int')
            sym = {'==': '=', '!=': '≠', '<': '<', '>': '>', '<=': '≤', '>=': '≥'}[op]
            return V('(if %s %s %s then 1 else 0)' % (a.p(), sym, b.p()), 'int', (0, 1))
        lit = None
        if a.lit is not None and b.lit is not None:
            r = {'+': a.lit + b.lit, '-': a.lit - b.lit, '*': a.lit * b.lit, '&': a.lit & b.lit, '|': a.lit | b.lit,
                 '^': a.lit ^ b.lit, '/': a.lit // b.lit if b.lit else None, '%': a.lit % b.lit if b.lit else None}[op]
            if t == 'int':
                assert 0 <= r < 2 ** 31, 'constant overflow'
            else:
                r %= 2 ** (32 if t == 'u32' else 64)
            return V(str(r), t, (r, r), r)
        if op in ('&', '|', '^'):
            sym = {'&': '&&&', '|': '|||', '^': '^^^'}[op]
            rng = None
            if t == 'int':
                if op == '&' and ((a.rng and a.rng[0] >= 0) or (b.rng and b.rng[0] >= 0)):
                    hi = min([x.rng[1] for x in (a, b) if x.rng and x.rng[0] >= 0])
                    rng = (0, hi)
                elif a.rng and b.rng and a.rng[0] >= 0 and b.rng[0] >= 0:
                    rng = (0, 2 ** max(a.rng[1].bit_length(), b.rng[1].bit_length()) - 1)
            return V('%s %s %s' % (a.p(), sym, b.p()), t, rng)
        if op in ('/', '%'):
            if t == 'int' and not (a.rng and b.rng and a.rng[0] >= 0 and b.rng[0] >= 0):
                self.err('division of possibly negative int')
            if b.lit is not None:
                assert b.lit != 0
                rng = None
                if op == '%':
                    rng = (0, b.lit - 1)
                elif a.rng:
                    rng = (0, a.rng[1] // b.lit)
                v = V('%s %s %s' % (a.p(), op, b.p()), t, rng)
                return v
            return V(self.bind('%s %s %s' % ('cdiv' if op == '/' else 'cmod', a.p(), b.p())), t, a.rng)
        # + - *
        if t == 'int':
            if a.rng and b.rng:
                c = {'+': (a.rng[0] + b.rng[0], a.rng[1] + b.rng[1]), '-': (a.rng[0] - b.rng[1], a.rng[1] - b.rng[0]),
                     '*': (min(x * y for x in a.rng for y in b.rng), max(x * y for x in a.rng for y in b.rng))}[op]
                if c[0] >= 0 and a.rng[0] >= 0 and b.rng[0] >= 0 and c[1] < 2 ** 31:
                    return V('%s %s %s' % (a.p(), op, b.p()), 'int', c)
            for x in (a, b):
                if not (x.rng and x.rng[0] >= 0):
                    self.err('arithmetic on possibly negative int')
            f = {'+': 'iadd', '-': 'isub', '*': 'imul'}[op]
            return V(self.bind('%s %s %s' % (f, a.p(), b.p())), 'int', (0, 2 ** 31 - 1))
        w = 'U32' if t == 'u32' else 'U64'
        if op == '-':
            return V('(%s + %s - %s) %% %s' % (a.p(), w, b.p(), w), t)
        return V('(%s %s %s) %% %s' % (a.p(), op, b.p(), w), t)

    def modmax(self, b):
        m = re.search(r' % (\d+)$', b.e)
        return int(m.group(1)) - 1 if m else None

    def modrange(self, b, w):
        m = self.modmax(b)
        return m is not None and m < w

    def conv_idx(self, v):
        v = self.promote(v)
        if v.t == 'int':
            if v.rng and v.rng[0] >= 0:
                return v
            self.err('possibly negative index')
        return v

    # ---- lvalues: ('var', name) | ('mem', base, offset, type) | ('field', lvalue, name, type)
    def lval(self, e):
        k = e[0]
        if k == 'var':
            return ('var', e[1])
        if k == 'un' and e[1] == '*':
            x = e[2]
            if x[0] == 'var' and x[1] in self.inout:
                return ('var', x[1])
            v = self.ev(x)
            if v.t == ('ptr', ('struct', 'params')):
                return ('params', v.e)
            if isinstance(v.t, tuple) and v.t[0] == 'ref':
                return ('var', v.t[1])
            return ('mem', v.e, '0', v.t[1])
        if k == 'index':
            base = e[1]
            if base[0] in ('index',) or (base[0] == 'member' and base[2] == 'round_keys'):
                lv = self.lval(base)
                if lv[0] == 'mem' and isinstance(lv[3], tuple) and lv[3][0] == 'arr':
                    iv = self.conv_idx(self.ev(e[2]))
                    n = flat(lv[3][1])[1]
                    o = self.scaled(n, iv)
                    if lv[2] != '0':
                        o = '%s + %s' % (lv[2], par(o)) if not o.isdigit() or o != '0' else lv[2]
                    return ('mem', lv[1], o, lv[3][1])
            v = self.ev(base)
            if not is_ptr(v.t):
                self.err('index of %r' % (v.t,))
            iv = self.conv_idx(self.ev(e[2]))
            n = flat(v.t[1])[1]
            return ('mem', v.e, self.scaled(n, iv), v.t[1])
        if k == 'member':
            if e[2] == 'round_keys':
                b = e[1]
                if b[0] == 'un' and b[1] == '*':
                    v = self.ev(b[2])
                    return ('mem', v.e, '0', v.t[1])
                v = self.ev(b)
                return ('mem', v.e, '0', v.t)
            lv = self.lval(e[1])
            if lv[0] == 'params':
                return ('params', lv[1]) if e[2] == 'faest_param' else ('pfield', lv[1], e[2])
            if lv[0] == 'var':
                t = self.scope[lv[1]]
                if t[0] == 'ptr':
                    t = t[1]
            elif lv[0] == 'mem':
                t = lv[3]
            else:
                self.err('member %r' % (e,))
            return ('field', lv, e[2], FIELDS[t][e[2]])
        self.err('lvalue %r' % (e,))

    def addr(self, lv):
        return lv[1] if lv[2] == '0' else 'padd %s %s' % (par(lv[1]), par(lv[2]))

    def load(self, lv):
        if lv[0] == 'var':
            if lv[1] not in self.assigned:
                self.err('%s read before assignment' % lv[1])
            t = self.scope[lv[1]]
            return V(lname(lv[1]), t[1] if lv[1] in self.inout else t)
        if lv[0] == 'pfield':
            if lv[2] == 'faest_paramid':
                return V('%s.id' % lv[1], 'enum')
            assert lv[2] in PARAM_FIELDS
            return V('%s.%s' % (lv[1], lv[2]), 'u16')
        if lv[0] == 'mem':
            t = lv[3]
            if isinstance(t, tuple) and t[0] == 'arr':
                return V(self.addr(lv), ('ptr', t[1]))
            if lv[1] in TABLES:
                return V(self.bind('tget %s %s' % (lv[1], par(lv[2]))), t)
            n = self.fresh()
            self.out('let %s : %s ← ld %s %s' % (n, leantype(t), par(lv[1]), par(lv[2])))
            return V(n, t)
        if lv[0] == 'field':
            s = self.load(lv[1])
            return V(self.bind('uget %s.%s' % (s.p(), lv[2])), lv[3])
        self.err('load %r' % (lv,))

    def store(self, lv, v):
        if lv[0] == 'var':
            t = self.scope[lv[1]]
            if lv[1] in self.inout:
                t = t[1]
            v = self.conv(v, t)
            self.out('let %s : %s := %s' % (lname(lv[1]), leantype(t), v.e))
            self.assigned.add(lv[1])
            return
        if lv[0] == 'mem':
            v = self.conv(v, lv[3])
            self.out('st %s %s %s' % (par(lv[1]), par(lv[2]), v.p()))
            return
        if lv[0] == 'field' and lv[1][0] == 'var':
            v = self.conv(v, lv[3])
            n = lname(lv[1][1])
            self.out('let %s := { %s with %s := some %s }' % (n, n, lv[2], v.p()))
            self.assigned.add(lv[1][1])
            return
        self.err('store %r' % (lv,))

    # ---- calls
    def alloc_args(self, e, t):
        """number of elements of type t in the byte count e"""
        leaf = flat(t)[0]
        if leaf == 'u8':
            return self.conv(self.ev(e), 'u64')
        sz = sizeof(t)
        if e[0] == 'bin' and e[1] == '*':
            fs = self.factors(e)
            k = [i for i, x in enumerate(fs) if x == ('sizeof_t', t)]
            if len(k) == 1:
                del fs[k[0]]
                r = ('cast', 'u64', fs[0])
                for x in fs[1:]:
                    r = ('bin', '*', r, x)
                return self.conv(self.ev(r), 'u64')
        if e[0] in ('sizeof_e', 'sizeof_t', 'num'):
            n = self.ev(e).lit
            assert n % sz == 0
            return V(str(n // sz), 'u64', None, n // sz)
        self.err('byte count %r' % (e,))

    def factors(self, e):
        if e[0] == 'bin' and e[1] == '*':
            return self.factors(e[2]) + self.factors(e[3])
        return [e]

    def allocation(self, f, args, t):
        """call of an allocation function whose result is stored in a pointer of type t"""
        el = t[1]
        lt = leantype(flat(el)[0])
        if f == 'malloc':
            n = self.alloc_args(args[0], el)
            x = 'malloc %s' % n.p()
            kind = '.heap'
        elif f == 'faest_aligned_alloc':
            n = self.alloc_args(args[1], el)
            x = 'malloc %s' % n.p()
            kind = '.aligned'
        else:
            kind = '.heap'
            a = self.conv(self.ev(args[0]), 'u64')
            if args[1][0] == 'sizeof_t' and args[1][1] == el:
                x = 'calloc %s zeroed' % a.p()
            else:
                assert el == 'u8'
                b = self.conv(self.ev(args[1]), 'u64')
                x = 'calloc (%s * %s) zeroed' % (a.p(), b.p())
        n = self.bind('alloc %s (%s : Mem %s)' % (kind, x, par(lt)))
        return V(n, t)

    def call(self, f, args):
        if f in ('malloc', 'calloc', 'faest_aligned_alloc'):
            self.err('allocation outside of an assignment')
        if f in ('free', 'faest_aligned_free'):
            v = self.ev(args[0])
            self.out('cfree %s %s' % ('.heap' if f == 'free' else '.aligned', v.p()))
            return None
        if f == 'memcpy':
            d, s = self.ev(args[0]), self.ev(args[1])
            el = d.t[1]
            n = self.alloc_args(args[2], flat(el)[0])
            self.out('memcpy (α := %s) %s %s %s' % (leantype(flat(el)[0]), d.p(), s.p(), n.p()))
            return None
        if f == 'memset':
            d, c = self.ev(args[0]), self.ev(args[1])
            assert flat(d.t[1])[0] == 'u8' and c.lit == 0
            n = self.conv(self.ev(args[2]), 'u64')
            self.out('memset0 %s %s' % (d.p(), n.p()))
            return None
        if f == 'memmove':
            d, s, n = self.ev(args[0]), self.ev(args[1]), self.conv(self.ev(args[2]), 'u64')
            assert d.t[1] == 'u8'
            self.out('memmove %s %s %s' % (d.p(), s.p(), n.p()))
            return None
        if f == 'memcmp':
            a, b = self.ev(args[0]), self.ev(args[1])
            n = self.conv(self.ev(args[2]), 'u64')
            return V(self.bind('memcmp %s %s %s' % (a.p(), b.p(), n.p())), 'int')
        if f == 'assert':
            v = self.ev(args[0])
            self.out('cassert (decide %s)' % par(self.prop(v)))
            return None
        if f in EXT:
            ln, ret, pts, eff = EXT[f]
            io = [i for i, t in enumerate(pts) if t[0] == 'ptr' and is_struct(t[1])]
            x = []
        elif f in FUNS:
            ret, ps, io, x = FUNS[f]
            ln, pts, eff = f, [t for _, t in ps], True
        else:
            self.err('unknown function %s' % f)
        vals, back = [], []
        for i, (a, t) in enumerate(zip(args, pts)):
            if i in io:
                if a[0] == 'un' and a[1] == '&':
                    lv = self.lval(a[2])
                else:
                    assert a[0] == 'var' and a[1] in self.inout, a
                    lv = ('var', a[1])
                v = self.load_struct(lv)
                vals.append(v)
                back.append(lv)
            elif t == ('ptr', ('struct', 'params')):
                v = self.ev(a)
                vals.append(v.e)
            else:
                vals.append(self.conv(self.ev(a), t).p())
        assert len(args) == len(pts), f
        c = ' '.join([ln] + list(x) + vals)
        if not eff:
            return V(c, ret)
        if not back:
            if ret == 'void':
                self.out(c)
                return None
            return V(self.bind(c), ret)
        outs = ([] if ret == 'void' else ['ret']) + back
        n = self.bind(c)
        res = None
        for j, o in enumerate(outs):
            pr = n + proj(j, len(outs))
            if o == 'ret':
                res = V(pr, ret)
            else:
                self.store_struct(o, pr)
        return res

    def load_struct(self, lv):
        if lv[0] == 'var':
            return lname(lv[1])
        if lv[0] == 'mem':
            n = self.fresh()
            self.out('let %s : %s ← ld %s %s' % (n, leantype(lv[3]), par(lv[1]), par(lv[2])))
            return n
        self.err('struct argument %r' % (lv,))

    def store_struct(self, lv, e):
        if lv[0] == 'var':
            self.out('let %s := %s' % (lname(lv[1]), e))
        else:
            self.out('st %s %s %s' % (par(lv[1]), par(lv[2]), par(e)))

    # ---- statements
    def assigned_in(self, stmts):
        """outer scalar variables (in scope) assigned in the statements, in order of declaration"""
        res = set()

        def expr(e):
            if not isinstance(e, tuple):
                return
            if e[0] == 'assign':
                b = e[1]
                while b[0] in ('member',):
                    b = b[1]
                    if b[0] == 'un' and b[1] == '*':
                        b = b[2]
                if b[0] == 'un' and b[1] == '*' and b[2][0] == 'var' and b[2][1] in self.inout:
                    b = b[2]
                if b[0] == 'var':
                    res.add(b[1])
            if e[0] == 'call':
                io = []
                if e[1] in EXT:
                    io = [i for i, t in enumerate(EXT[e[1]][2]) if t[0] == 'ptr' and is_struct(t[1])]
                elif e[1] in FUNS:
                    io = FUNS[e[1]][2]
                for i in io:
                    a = e[2][i]
                    if a[0] == 'un' and a[1] == '&' and a[2][0] == 'var':
                        res.add(a[2][1])
                    if a[0] == 'var':
                        res.add(a[1])
                for a in e[2]:
                    expr(a)
                return
            for x in e[1:]:
                if isinstance(x, tuple):
                    expr(x)

        def stmt(s, loc):
            k = s[0]
            if k == 'decl':
                if s[3]:
                    expr(s[3])
                loc.add(s[1])
            elif k == 'expr':
                expr(s[1])
            elif k == 'return' and s[1]:
                expr(s[1])
            elif k == 'block':
                many(s[1], loc)
            elif k == 'if':
                expr(s[1])
                many(s[2], loc)
                many(s[3], loc)
            elif k == 'for':
                l2 = set(loc)
                for x in s[1]:
                    stmt(x, l2)
                if s[2]:
                    expr(s[2])
                for x in s[3]:
                    expr(x)
                many(s[4], l2)
            elif k == 'switch':
                expr(s[1])
                for _, b in s[2]:
                    many(b, loc)

        def many(ss, loc):
            before = set(res)
            l2 = set(loc)
            for s in ss:
                stmt(s, l2)
        many(stmts, set())
        return [n for n in self.scope if n in res]

    def returns(self, stmts):
        """every path ends in return"""
        for s in stmts:
            if s[0] == 'return':
                return True
            if s[0] == 'block' and Fn.returns(None, s[1]):
                return True
            if s[0] == 'if' and Fn.returns(None, s[2]) and Fn.returns(None, s[3]):
                return True
            if s[0] == 'switch' and any(None in l for l, _ in s[2]) and all(Fn.returns(None, b) for _, b in s[2]):
                return True
        return False

    def has(self, stmts, kinds, inloop=False):
        for s in stmts:
            if s[0] in kinds:
                return True
            if s[0] == 'block' and self.has(s[1], kinds):
                return True
            if s[0] == 'if' and (self.has(s[2], kinds) or self.has(s[3], kinds)):
                return True
            if s[0] == 'for' and self.has(s[4], kinds - {'break', 'continue'}):
                return True
            if s[0] == 'switch' and any(self.has(b, kinds - {'break'}) for _, b in s[2]):
                return True
        return False

    def tup(self, vs):
        if not vs:
            return '()'
        return '(' + ', '.join(lname(v) for v in vs) + ')' if len(vs) > 1 else lname(vs[0])

    def tuptype(self, vs):
        if not vs:
            return 'Unit'
        return ' × '.join(leantype(self.vtype(v)) for v in vs)

    def vtype(self, v):
        if v == '_brk':
            return 'bool'
        t = self.scope[v]
        return t[1] if v in self.inout else t

    def untup(self, n, vs, keep=None):
        for j, v in enumerate(vs):
            if keep is not None and v not in keep:
                continue
            self.out('let %s : %s := %s%s' % (lname(v), leantype(self.vtype(v)), n, proj(j, len(vs))))

    def free_stack(self, level):
        for fr in reversed(self.stack[level:]):
            for a in reversed(fr):
                t = self.scope[a]
                if t in HCTX:
                    self.out('I.drop%s %s' % (t[1][4:], lname(a)))
                else:
                    self.out('cfree .stack %s' % lname(a))

    def emit_return(self, e):
        v = None
        if e is not None:
            v = self.conv(self.ev(e), self.ret)
            if self.stack and any(self.stack) and not re.match(r'^[\w]+$', v.e):
                n = self.fresh()
                self.out('let %s := %s' % (n, v.e))
                v = V(n, v.t)
        self.free_stack(0)
        self.out('pure %s' % par(self.result(v)))

    def result(self, v):
        xs = ([v.e] if v is not None else []) + [lname(n) for n in self.inout]
        if not xs:
            return '()'
        return '(' + ', '.join(xs) + ')' if len(xs) > 1 else xs[0]

    def seq(self, stmts, tail):
        """emit statements; `tail()` emits the final action unless all paths return"""
        for i, s in enumerate(stmts):
            k = s[0]
            rest = stmts[i + 1:]
            if k == 'return':
                self.emit_return(s[1])
                return
            if k == 'continue':
                self.loopstack[-1]['cont']()
                return
            if k == 'break':
                self.loopstack[-1]['brk']()
                return
            if k == 'block':
                if self.has(s[1], {'return', 'break', 'continue'}):
                    self.seq(s[1] + rest, tail)
                    return
                lv = len(self.stack)
                self.stack.append([])
                names = set(self.scope)
                self.seq(s[1], lambda: None)
                self.free_stack(lv)
                self.stack.pop()
                self.scope = {n: t for n, t in self.scope.items() if n in names}
                continue
            if k == 'if':
                jump = {'return', 'break', 'continue'}
                if self.has(s[2], jump) or self.has(s[3], jump):
                    c = self.ev(s[1])
                    self.branch('if %s then (do' % self.prop(c), lambda: self.seq(s[2] + ([] if self.ends(s[2]) else rest), tail))
                    self.lines[-1] += ')'
                    self.branch('else (do', lambda: self.seq(s[3] + ([] if self.ends(s[3]) else rest), tail))
                    self.lines[-1] += ')'
                    return
                c = self.ev(s[1])
                self.joined([(self.prop(c), s[2]), (None, s[3])])
                continue
            if k == 'switch':
                v = self.ev(s[1])
                if v.t != 'enum':
                    v = self.promote(v)
                branches, default = [], []
                for labels, body in s[2]:
                    b = body[:-1] if body and body[-1][0] == 'break' else body
                    if None in labels:
                        default = b
                        assert len(labels) == 1
                        continue
                    ps = []
                    for l in labels:
                        w = self.ev(l)
                        ps.append('%s = %s' % (v.p(), w.e))
                    branches.append((' ∨ '.join(ps), b))
                branches.append((None, default))
                if any(self.has(b, {'return', 'continue', 'break'}) for _, b in branches):
                    self.chain(branches, lambda b: self.seq(b + ([] if self.ends(b) else rest), tail))
                    return
                self.joined(branches)
                continue
            self.stmt(s)
        tail()

    def ends(self, stmts):
        return bool(stmts) and (stmts[-1][0] in ('return', 'break', 'continue') or self.returns(stmts))

    def branch(self, head, f):
        self.out(head)
        sc, asg, st = dict(self.scope), set(self.assigned), [list(x) for x in self.stack]
        self.ind += 1
        f()
        self.ind -= 1
        after = self.assigned
        self.scope, self.assigned, self.stack = sc, asg, st
        return after

    def chain(self, branches, f):
        n = 0
        for p, b in branches:
            if p is not None:
                self.branch(('if %s then (do' if n == 0 else 'else (if %s then (do') % p, lambda: f(b))
                self.lines[-1] += ')'
                n += 1
            else:
                self.branch('else (do' if n else '(do', lambda: f(b))
                self.lines[-1] += ')' * max(n, 1)

    def joined(self, branches):
        allst = []
        for _, b in branches:
            allst += b
        cand = self.assigned_in([('block', b) for _, b in branches])
        # definitely assigned afterwards: assigned before or in every branch
        def in_all(v):
            return all(v in self.assigned_in([('block', b)]) for _, b in branches)
        vs = [v for v in cand if v in self.assigned or in_all(v)]
        n = self.fresh()
        self.out('let %s : %s ← (' % (n, self.tuptype(vs)))
        self.ind += 1

        def body(b):
            lv = len(self.stack)
            self.stack.append([])

            def fin():
                self.free_stack(lv)
                self.out('pure %s' % self.tup(vs))
            self.seq(b, fin)
            self.stack.pop()
        self.chain(branches, body)
        self.lines[-1] += ')'
        self.ind -= 1
        self.untup(n, vs)
        self.assigned |= set(vs)

    def stmt(self, s):
        k = s[0]
        if k == 'decl':
            self.declare(s)
        elif k == 'expr':
            self.exprstmt(s[1])
        elif k == 'for':
            self.loop(s)
        else:
            self.err('statement %s' % k)

    def declare(self, s):
        _, n, t, init = s
        if n in self.scope or re.match(r'e\d+$', n):
            self.err('shadowing of %s' % n)
        self.scope[n] = t
        if t[0] == 'arr':
            leaf, cnt = flat(t)
            m = 'calloc %d zeroed' % cnt if init == ('zero',) else 'malloc %d' % cnt
            assert init in (None, ('zero',))
            self.out('let %s ← alloc .stack (%s : Mem %s)' % (lname(n), m, par(leantype(leaf))))
            self.stack[-1].append(n)
            self.assigned.add(n)
            return
        if t in HCTX:
            assert init is None
            self.out('let %s ← I.new%s' % (lname(n), t[1][4:]))
            self.stack[-1].append(n)
            self.assigned.add(n)
            return
        if is_struct(t):
            if init is None:
                self.out('let %s : %s := {}' % (lname(n), leantype(t)))
            else:
                v = self.ev(init)
                self.out('let %s : %s := %s' % (lname(n), leantype(t), v.e))
            self.assigned.add(n)
            return
        if init is None:
            self.assigned.discard(n)
            return
        if init[0] == 'call' and init[1] in ('malloc', 'calloc', 'faest_aligned_alloc'):
            v = self.allocation(init[1], init[2], t)
        else:
            v = self.conv(self.ev(init), t)
        self.out('let %s : %s := %s' % (lname(n), leantype(t), v.e))
        self.assigned.add(n)

    def exprstmt(self, e):
        if e[0] == 'assign':
            lv = self.lval(e[1])
            if e[2][0] == 'call' and e[2][1] in ('malloc', 'calloc', 'faest_aligned_alloc'):
                t = lv[3] if lv[0] in ('mem', 'field') else self.scope[lv[1]]
                v = self.allocation(e[2][1], e[2][2], t)
            else:
                v = self.ev(e[2])
            self.store(lv, v)
        elif e[0] == 'call':
            self.call(e[1], e[2])
        else:
            self.err('expression statement %r' % (e,))

    def loop(self, s):
        _, init, c, step, body = s
        names = list(self.scope)
        self.stack.append([])
        for x in init:
            if x[0] == 'decl':
                self.declare(x)
            else:
                self.exprstmt(x[1])
        vs = [v for v in self.assigned_in([('block', body)] + [('expr', x) for x in step]) if v in self.assigned]
        # variables not yet assigned stay local to one iteration
        brk = self.has(body, {'break'})
        ret = self.has(body, {'return'})
        if ret:
            self.err('return in loop')
        allv = vs + (['_brk'] if brk else [])
        if brk:
            self.out('let _brk : Bool := false')
        n = self.fresh()
        self.out('let %s : %s ← cwhile' % (n, self.tuptype(allv)))
        sv = '_s%d' % (len(self.loopstack) + 1)
        self.ind += 2
        asg = set(self.assigned)
        # condition: must be pure
        saved = self.lines
        self.lines = []
        self.untup(sv, allv)
        k0 = len(self.lines)
        cv = self.ev(c)
        if len(self.lines) != k0:
            self.err('effects in loop condition')
        p = self.prop(cv)
        cl = self.lines
        self.lines = saved
        used = set(re.findall(r'\w+', p)) | {'_brk'}
        self.out('(fun %s =>' % sv)
        for l in cl:
            m = re.match(r'\s*let (\S+) :', l)
            if m.group(1) in used:
                self.lines.append('  ' + l)
        self.out('  decide (%s%s))' % ('_brk = false ∧ ' if brk else '', p))
        self.out('(fun %s => do' % sv)
        self.ind += 1
        self.untup(sv, allv)
        lv = len(self.stack)
        self.stack.append([])

        def fin():
            self.free_stack(lv)
            for x in step:
                self.exprstmt(x)
            self.out('pure %s' % self.tup(allv))

        def dobrk():
            self.free_stack(lv)
            self.out('let _brk : Bool := true')
            self.out('pure %s' % self.tup(allv))
        self.loopstack.append({'cont': fin, 'brk': dobrk})
        self.seq(body, fin)
        self.loopstack.pop()
        self.stack.pop()
        self.lines[-1] += ')'
        self.ind -= 1
        self.out(self.tup(allv))
        self.ind -= 2
        self.stack.pop()
        self.assigned = asg
        self.untup(n, vs, names)
        self.scope = {x: t for x, t in self.scope.items() if x in names}

    def emit(self):
        for n, t in self.params:
            self.scope[n] = t if not (t[0] == 'arr') else ('ptr', t[1])
            self.assigned.add(n)
        self.stack = [[]]

        def fin():
            self.free_stack(0)
            self.out('pure %s' % par(self.result(None)))
        self.seq(self.body, fin)
        return self.lines


def proj(j, n):
    if n == 1:
        return ''
    return '.2' * j + ('.1' if j < n - 1 else '')


def calls(body):
    return set(re.findall(r"\('call', '(\w+)'", repr(body)))


BOXABLE = set()          # further types of scalars


def boxed(body):
    """replace the scalar variables whose address is taken by arrays with one element"""
    names = set(re.findall(r"\('un', '&', \('var', '(\w+)'\)\)", repr(body)))
    res = set()

    def find(s):
        if isinstance(s, (list, tuple)):
            if isinstance(s, tuple) and len(s) == 4 and s[0] == 'decl' and s[1] in names and (is_int(s[2]) or s[2] in BOXABLE):
                res.add(s[1])
            for x in s:
                find(x)
    find(body)

    def go(s):
        if isinstance(s, list):
            out = []
            for x in s:
                if isinstance(x, tuple) and x and x[0] == 'decl' and x[1] in res:
                    out.append(('decl', x[1], ('arr', x[2], 1), None))
                    if x[3] is not None:
                        out.append(('expr', ('assign', ('index', ('var', x[1]), ('num', 0, 'int')), go(x[3]))))
                else:
                    out.append(go(x))
            return out
        if isinstance(s, tuple):
            if len(s) == 3 and s[:2] == ('un', '&') and s[2][0] == 'var' and s[2][1] in res:
                return s[2]
            if len(s) == 2 and s[0] == 'var' and s[1] in res:
                return ('index', s, ('num', 0, 'int'))
            return tuple(go(x) for x in s)
        return s
    return go(body) if res else body


def tr_file(fname, module, imports, macros, skip=(), only=None, sets=None, rename=None):
    """`sets`: values for the template `fname`; one copy of the functions for each of them"""
    units = []
    for sub in (sets or [None]):
        mac = macros
        if sub is not None:
            mac = Macros()
            mac.m = dict(macros.m)
            preprocess(os.path.join(REPO, 'faest_param.h.in'), mac, emit=False, subst=sub)
        toks = preprocess(os.path.join(REPO, fname), mac, subst=sub)
        toks = mac.expand(toks)
        if rename is not None:
            toks = [(k, rename(v, sub) if k == 'id' else v, l) for k, v, l in toks]
        units += Parser(toks, fname).translation_unit()
    units = [u[:4] + (boxed(u[4]),) + u[5:] if u[0] == 'fun' else u for u in units]
    out = []
    funs = [u for u in units if u[0] == 'fun' and u[1] not in skip and (only is None or u[1] in only)]
    tables = [u for u in units if u[0] == 'table']
    if only is not None:
        tables = []
    for _, n, t, vals, a, b in tables:
        TABLES[n] = ('arr', t[1], t[2])
        assert len(vals) == t[2]
        out.append('/-- %s:%d-%d -/' % (fname, a, b))
        out.append('def %s : List Byte :=' % n)
        for i in range(0, len(vals), 15):
            out.append('  %s%s%s' % ('[' if i == 0 else ' ', ', '.join('0x%02x' % v for v in vals[i:i + 15]),
                                     ']' if i + 15 >= len(vals) else ','))
        out.append('')
    known = {u[1]: u for u in funs}
    for u in funs:
        _, n, ret, ps, body, a, b = u
        FUNS[n] = (ret, ps, inout_params(n, ps, body), [])
    # order: callees first
    done, order = set(), []

    def visit(n):
        if n in done:
            return
        done.add(n)
        for c in sorted(calls(known[n][4]), key=lambda c: known[c][5] if c in known else 0):
            if c in known:
                visit(c)
        order.append(n)
    for u in funs:
        visit(u[1])
    for n in order:
        _, _, ret, ps, body, a, b = known[n]
        x = [v for v in 'FIR' if any(c in FUNS and v in FUNS[c][3] or c in EXT and re.search(r'(^| )%s($|\.)' % v, EXT[c][0])
                                    for c in calls(body))]
        FUNS[n] = FUNS[n][:3] + (x,)
        fn = Fn(n, ret, ps, body, fname)
        lines = fn.emit()
        io = FUNS[n][2]
        rts = ([] if ret == 'void' else [leantype(ret)]) + [leantype(ps[i][1][1]) for i in io]
        rt = ' × '.join(rts) if rts else 'Unit'
        args = [{'F': '(F : FImpl)', 'I': '(I : HImpl)', 'R': '(R : CPtr)'}[v] for v in x]
        for i, (pn, pt) in enumerate(ps):
            if i in io:
                lt = leantype(pt[1])
            elif pt == ('ptr', ('struct', 'params')):
                lt = 'Params'
            else:
                lt = leantype(pt)
            args.append('(%s : %s)' % (lname(pn), lt))
        out.append('/-- %s:%d-%d `%s`. -/' % (fname, a, b, n))
        head = 'def %s' % n
        cur = head
        for ar in args:
            if len(cur) + len(ar) > 112:
                out.append(cur)
                cur = '    ' + ar
            else:
                cur += ' ' + ar
        cur += ' : CM %s := do' % (par(rt) if ' ' in rt else rt)
        out.append(cur)
        out += lines
        out.append('')
    path = os.path.join(OUT, module + '.lean')
    with open(path, 'w') as fh:
        fh.write('/-\nGenerated by tools/c2lean.py from %s. Do not edit.\n-/\n' % fname)
        for im in imports:
            fh.write('import Verif.Model.%s\n' % (NS + im[3:] if im.startswith('Gen.') and im != 'Gen.Instances' else im))
        fh.write('\nset_option linter.unusedVariables false\n\nnamespace Faest.%s\nopen Faest.C\n\n' % NS)
        fh.write('\n'.join(out))
        fh.write('\nend Faest.%s\n' % NS)
    return funs


def tr_instances():
    """instances.c `faest_get_paramset`; the fields beta, C and skSize of `Params` are not in the C struct"""
    text = open(os.path.join(REPO, 'instances.c')).read()
    hdr = strip_comments(open(os.path.join(REPO, 'instances.h')).read())
    fields = re.findall(r'uint16_t (\w+);', re.search(r'struct faest_param_t \{(.*?)\}', hdr, re.S).group(1))
    mac = {m.group(1): [x.strip() for x in m.group(2).replace('\\', ' ').split(',')]
           for m in re.finditer(r'#define (\w+_PARAMS)[\s\\]*\{(.*?)\}', text, re.S)}
    start = text.index('faest_paramset_t faest_get_paramset')
    a = text[:start].count('\n') + 1
    b = text[:text.index('\n}', start)].count('\n') + 2
    body = text[start:]
    out = []
    cases = re.findall(r'(case (\w+)|default):\s*return \(faest_paramset_t\)\{(\w+), (\w+)\};', body)
    assert len(cases) == 13 and len(fields) == 15
    for _, c, ps, pid in cases:
        vals = dict(zip(fields, [int(x) if x.isdigit() else CONSTS[x] for x in mac[ps]]))
        assert len(mac[ps]) == 15 and all(v < 65536 for v in vals.values())
        for lf, k in (('beta', 'BETA'), ('C', 'C'), ('skSize', 'SK_SIZE')):
            vals[lf] = CONSTS['%s_%s' % (c, k)] if c else 0
        out.append('  | %s =>\n    { id := %s, %s }' % (ENUMS[c].strip('()') if c else 'none', ENUMS.get(pid, 'none').strip('()'),
                                                     ', '.join('%s := %d' % kv for kv in vals.items())))
    with open(os.path.join(OUT, 'Instances.lean'), 'w') as f:
        f.write('/-\nGenerated by tools/c2lean.py from instances.c and meson.build. Do not edit.\n-/\n'
                'import Verif.Model.Params\n\nnamespace Faest.Gen\n\n'
                '/-- instances.c:%d-%d `faest_get_paramset`. -/\ndef faest_get_paramset : Option ParamId → Params\n' % (a, b)
                + '\n'.join(out) + '\n\nend Faest.Gen\n')


def main():
    read_meson()
    macros = Macros()
    for h in MACRO_FILES:
        preprocess(os.path.join(REPO, h), macros, emit=False)
    os.makedirs(OUT, exist_ok=True)
    tr_file('utils.h', 'Utils', ['FImpl' if MODE == 'words' else 'CSem'], macros)
    tr_file('aes.c', 'Aes', ['Gen.Utils'], macros)
    tr_file('universal_hashing.c', 'UHash', ['Gen.Utils'], macros)
    tr_file('vc.c', 'Vc', ['Gen.Aes', 'HImpl'], macros)
    tr_file('vole.c', 'Vole', ['Gen.Vc'], macros)
    for m in ('R', 'V'):
        macros.m.pop(m, None)
    tr_file('faest_aes.c', 'FaestAes', ['Gen.Vole', 'Gen.UHash'], macros)
    tr_file('faest.c', 'Faest', ['Gen.FaestAes'], macros)
    tr_file('owf.c', 'Owf', ['Gen.Aes'], macros)
    global SHORT_CIRCUIT
    SHORT_CIRCUIT = True
    DEFINED.update(['HAVE_CONFIG_H', 'HAVE_ALIGNED_ALLOC'])
    tr_file('compat.c', 'Compat', ['CSem'], macros)
    DEFINED.clear()
    preprocess(os.path.join(REPO, 'owf.h'), macros, emit=False)
    if MODE != 'words':
        tr_instances()
    tr_file('faest_param.c.in', 'Api', ['Gen.Instances', 'Gen.Faest', 'Gen.Owf', 'Gen.Compat'], macros, sets=SETS)
    tr_file('crypto_sign.c.in', 'CryptoSign', ['Gen.Api'], macros, sets=SETS,
            rename=lambda v, sub: v + '_' + sub['PARAM_L'] if v.startswith('crypto_sign') else v)


if __name__ == '__main__':
    main()
