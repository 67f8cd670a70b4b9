#!/usr/bin/env python3
"""Translate the hash layer of /repo (sha3/opt64, the sponge and hash interfaces, hash_shake.h, random_oracle.c)
into Lean definitions over Verif/Model/CSem.lean and Verif/Model/CHash.lean.

usage: c2hash.py REPO OUTDIR

Uses the parser and the translation of statements of c2lean.py.  What is different here: a preprocessor which follows
#include, #define, #undef and ## in order; `uint64_t` is a machine word (BitVec 64), read from and written to bytes in
little-endian order; contexts are structures whose array member is a block of its own; the macros of the permutation
become functions on the 25 variables of a group (see DESIGN.md).
"""
import os
import re
import sys
sys.path.insert(0, os.path.dirname(os.path.abspath(__file__)))
import c2lean as C
from c2lean import V, par, lname, leantype, proj

REPO, OUT = C.REPO, C.OUT

# ---------------------------------------------------------------- preprocessor


class Ln(int):
    """line number with the name of its file"""
    def __new__(cls, n, f):
        x = int.__new__(cls, n)
        x.f = f
        return x


# headers whose contents are not used, apart from the definitions made here
IGNORE = {'stdint.h', 'string.h', 'stdlib.h', 'stddef.h', 'stdio.h', 'align.h', 'endian_compat.h',
          'macros.h', 'displayIntermediateValues.h', 'smmintrin.h', 'wmmintrin.h', 'immintrin.h', 'emmintrin.h'}
PREDEF = {'FAEST_IS_LITTLE_ENDIAN': '', 'NULL': '((void*)0)', 'FAEST_BEGIN_C_DECL': '', 'FAEST_END_C_DECL': ''}


class CPP:
    def __init__(self, dirs, override, defined=(), be=False):
        self.m = {}
        self.raw = {}            # macros replaced by calls: the definition in the source
        self.dirs, self.override, self.out = dirs, override, []
        for k, v in PREDEF.items():
            self.m[k] = (None, C.tokenize(v))
        for k in defined:
            self.m[k] = (None, [])
        self.m['ALIGN'] = (['x'], [])
        self.m['htole64'] = (['x'], C.tokenize('x'))       # little-endian host
        if be:
            del self.m['FAEST_IS_LITTLE_ENDIAN']
            self.m['FAEST_IS_BIG_ENDIAN'] = (None, [])
            self.m['htole64'] = (['x'], C.tokenize('bswap64((x))'))       # endian_compat.h:179

    def define(self, text, ln):
        m = re.match(r'([A-Za-z_]\w*)(\(([^)]*)\))?\s*(.*)$', text, re.S)
        name, params, body = m.group(1), m.group(3), m.group(4)
        ps = [p.strip() for p in params.split(',')] if params is not None else None
        if ps == ['']:
            ps = []
        d = (ps, C.tokenize(body))
        if name in self.override:
            self.raw[name] = d + (ln,)
            if self.override[name] is not None:
                d = (ps, C.tokenize(self.override[name]))
        self.m[name] = d

    def args(self, toks, i):
        """arguments of the macro call whose opening parenthesis is at i; position after the call"""
        depth, j, args, cur = 0, i, [], []
        while True:
            t = toks[j]
            if t[1] == '(' :
                depth += 1
                if depth > 1:
                    cur.append(t)
            elif t[1] == ')':
                depth -= 1
                if depth == 0:
                    args.append(cur)
                    return args, j + 1
                cur.append(t)
            elif t[1] == ',' and depth == 1:
                args.append(cur)
                cur = []
            else:
                cur.append(t)
            j += 1

    def subst(self, params, body, args, ln):
        """replace the parameters; operands of ## are pasted unexpanded"""
        exp = [None] * len(params)
        res, i = [], 0
        while i < len(body):
            a, b, _ = body[i]
            paste = (i + 1 < len(body) and body[i + 1][1] == '##') or (i > 0 and body[i - 1][1] == '##')
            if b == '##':
                i += 1
                nxt = body[i]
                right = args[params.index(nxt[1])] if nxt[1] in params else [nxt]
                l, r = res.pop(), right[0]
                t = C.tokenize(l[1] + r[1])
                assert len(t) == 1
                res.append((t[0][0], t[0][1], ln))
                res += [(x, y, ln) for x, y, _ in right[1:]]
            elif a == 'id' and b in params:
                k = params.index(b)
                if paste:
                    res += [(x, y, ln) for x, y, _ in args[k]]
                else:
                    if exp[k] is None:
                        exp[k] = self.expand(args[k])
                    res += [(x, y, ln) for x, y, _ in exp[k]]
            else:
                res.append((a, b, ln))
            i += 1
        return res

    def expand(self, toks, hide=frozenset()):
        out, i = [], 0
        while i < len(toks):
            k, v, ln = toks[i]
            if k == 'id' and v in self.m and v not in hide:
                params, body = self.m[v]
                if params is None:
                    out += self.rescan(self.subst([], body, [], ln), hide | {v})
                    i += 1
                    # a name of a function-like macro may result
                    if out and out[-1][0] == 'id' and out[-1][1] in self.m and self.m[out[-1][1]][0] is not None \
                            and i < len(toks) and toks[i][1] == '(':
                        i -= 1
                        toks = toks[:i] + [out.pop()] + toks[i + 1:]
                    continue
                if i + 1 < len(toks) and toks[i + 1][1] == '(':
                    args, j = self.args(toks, i + 1)
                    if not params:
                        args = []
                    assert len(args) == len(params), v
                    out += self.rescan(self.subst(params, body, args, ln), hide | {v})
                    i = j
                    continue
            out.append(toks[i])
            i += 1
        return out

    def rescan(self, toks, hide):
        return self.expand(toks, hide)

    def cond(self, expr):
        e = re.sub(r'defined\s*\(\s*(\w+)\s*\)|defined\s+(\w+)',
                   lambda m: '1' if (m.group(1) or m.group(2)) in self.m else '0', expr)
        e = ' '.join(t[1] for t in self.expand(C.tokenize(e)))
        e = e.replace('&&', ' and ').replace('||', ' or ').replace('!=', '<>').replace('!', ' not ').replace('<>', '!=')
        e = re.sub(r'\b(?!and\b|or\b|not\b)[A-Za-z_]\w*\b', '0', e)
        return bool(eval(e))

    def include(self, name, path):
        if os.path.basename(name) in IGNORE:
            return
        for d in [os.path.dirname(path)] + self.dirs:
            p = os.path.join(d, name)
            if os.path.exists(p):
                self.run(p)
                return
        raise IOError('include %s' % name)

    def run(self, path):
        f = os.path.relpath(path, REPO)
        lines = C.strip_comments(open(path).read()).split('\n')
        stack, i, pend = [], 0, []

        def flush():
            if pend:
                self.out += self.expand(list(pend))
                pend.clear()
        while i < len(lines):
            ln, start = lines[i], i
            if ln.lstrip().startswith('#'):
                while ln.endswith('\\'):
                    i += 1
                    ln = ln[:-1] + ' ' + lines[i]
                m = re.match(r'(\w+)\s*(.*)$', ln.lstrip()[1:].strip(), re.S)
                kw, rest = m.group(1), m.group(2)
                act = all(s[0] for s in stack)
                if kw in ('if', 'ifdef', 'ifndef'):
                    v = act and (self.cond(rest) if kw == 'if' else ((rest.strip() in self.m) == (kw == 'ifdef')))
                    stack.append([v, v])
                elif kw == 'elif':
                    s = stack[-1]
                    v = (not s[1]) and all(x[0] for x in stack[:-1]) and self.cond(rest)
                    s[0], s[1] = v, s[1] or v
                elif kw == 'else':
                    s = stack[-1]
                    s[0], s[1] = not s[1], True
                elif kw == 'endif':
                    stack.pop()
                elif act and kw == 'define':
                    flush()
                    self.define(rest, Ln(start + 1, f))
                elif act and kw == 'undef':
                    flush()
                    self.m.pop(rest.strip(), None)
                elif act and kw == 'include':
                    flush()
                    self.include(rest.strip().strip('<>"'), path)
                elif act and kw == 'error':
                    raise SyntaxError('#error in %s' % f)
                i += 1
                continue
            if all(s[0] for s in stack):
                pend += [(a, b, Ln(l, f)) for a, b, l in C.tokenize(ln, start + 1)]
            i += 1
        flush()


# ---------------------------------------------------------------- types

SPONGE, HASH = ('struct', 'sponge'), ('struct', 'hash')
LANES, PAR = ('rec', 'Keccak.Lanes'), ('rec', 'Keccak.Par')
LANES4, PAR4 = ('rec', 'Lanes4'), ('rec', 'Par4')
HALVES = ('rec', 'Halves')
# the groups of variables of the file being translated: type of 25 variables, of 5 variables, of one variable
GROUP = [LANES, PAR, 'w64']
C.BASE.update({'uint64_t': 'w64', 'BitSequence': 'u8', 'BitLength': 'u64', 'HashReturn': 'int',
               'KeccakWidth1600_SpongeInstance': SPONGE, 'KeccakWidth1600times4_SpongeInstance': SPONGE,
               'Keccak_HashInstance': HASH, 'Keccak_HashInstancetimes4': HASH,
               'hash_context': HASH, 'hash_context_x4': HASH, 'short': 'u16',
               'lanes': LANES, 'parities': PAR, 'V256': 'v256', 'V128': 'v128'})
for _h in ('H0', 'H1', 'H2', 'H3'):
    C.BASE[_h + '_context_t'] = HASH
C.BASE['H0_context_x4_t'] = HASH
C.FIELDS[SPONGE] = {'state': ('arr', 'u8', 200), 'rate': 'u32', 'byteIOIndex': 'u32', 'squeezing': 'int'}
C.FIELDS[HASH] = {'sponge': SPONGE, 'fixedOutputLength': 'u32', 'delimitedSuffix': 'u8'}
C.CONSTS.update({'KECCAK_SUCCESS': 0, 'KECCAK_FAIL': 1, 'KECCAK_BAD_HASHLEN': 2})
C.LEAN_KW.add('instance')
C.BOXABLE.add('w64')
for k in list(C.EXT):
    del C.EXT[k]

# machine words
WORD = {'w64': 64, 'w32': 32}
_flat, _leantype, _sizeof = C.flat, C.leantype, C.sizeof


def flat(t):
    if t == 'w64':
        return 'u8', 8
    if t == 'w32':
        return 'u8', 4
    if t == 'v256':
        return 'u8', 32
    if isinstance(t, tuple) and t[0] == 'arr':
        l, n = flat(t[1])
        return l, n * t[2]
    return t, 1


def leantype(t):
    if t in WORD:
        return 'BitVec %d' % WORD[t]
    if t == 'v256':
        return 'V256'
    if t[0] == 'rec':
        return t[1]
    if t == SPONGE:
        return 'SpongeC'
    if t == HASH:
        return 'HashC'
    return _leantype(t)


def sizeof(t):
    return WORD[t] // 8 if t in WORD else 32 if t == 'v256' else _sizeof(t)


C.flat, C.leantype, C.sizeof = flat, leantype, sizeof

# ---------------------------------------------------------------- parser


class Parser(C.Parser):
    keep = None

    def base_type(self):
        t = None
        while True:
            p = self.peek()
            if p == 'unsigned' and self.peek(1) == 'short':
                self.next()
                self.next()
                t = 'u16'
            else:
                break
        return t if t is not None else super().base_type()

    def is_type(self, k=0):
        return super().is_type(k) and self.peek(k) != 'lanes_'

    def translation_unit(self):
        """as in c2lean, with constants and 64-bit tables"""
        us = []
        while self.i < len(self.t):
            # a scalar constant: [static] const type name = value ;
            k = 0
            while self.peek(k) in ('static', 'const'):
                k += 1
            if k and self.kind(k) == 'id' and self.kind(k + 1) == 'id' and self.peek(k + 2) == '=':
                t = self.base_type()
                n = self.next()
                self.need('=')
                us.append(('const', n, t, C.const_eval(self.assign())))
                self.need(';')
                continue
            j = self.i
            depth = 0
            # one external declaration
            while True:
                v = self.t[j][1]
                depth += v in '{('
                depth -= v in '})'
                j += 1
                if depth == 0 and (v == ';' or v == '}') and not (j < len(self.t) and v == '}' and self.t[self.i][1] == 'typedef') \
                        and not (v == '}' and j < len(self.t) and self.t[j][1] == ';'):
                    break
            # bodies of functions which are not translated are not parsed
            name = next((self.t[q][1] for q in range(self.i, j - 1) if self.t[q][0] == 'id' and self.t[q + 1][1] == '('), None)
            if self.keep is not None and name is not None and self.t[j - 1][1] == '}' and name not in self.keep:
                self.i = j
                continue
            sub = C.Parser.translation_unit
            p = self.__class__(self.t[self.i:j], self.f)
            us += sub(p)
            self.i = j
        return us


# ---------------------------------------------------------------- translation

# the macros of the permutation: macro name -> (kind, text the macro expands to)
#   groups of variables are values of the types `lanes` (25 variables) and `parities` (5 variables)
OVERRIDE = {
    'declareABCDE': 'lanes A;',
    'copyFromState': 'X = copyFromState(state);',
    'copyToState': 'copyToState(state, X);',
    'addInput': 'X = addInput(X, input, laneCount);',
    'rounds24': 'A = rounds24(A);',
    'rounds12': 'A = rounds12(A);',
    'prepareTheta': 'C = prepareTheta(A);',
    'thetaRhoPiChiIotaPrepareTheta': 'ROUND(i, A, E);',
    'thetaRhoPiChiIota': 'LASTROUND(i, A, E);',
}
SUB = [x + y for x in 'bgkms' for y in 'aeiou']


class Fn(C.Fn):
    def conv(self, v, t):
        if v.t == t:
            return v
        if t in WORD:
            if v.lit is not None:
                assert 0 <= v.lit < 2 ** WORD[t]
                return V('(%d : BitVec %d)' % (v.lit, WORD[t]), t)
            if v.t == 'u8':
                return V('BitVec.setWidth %d %s' % (WORD[t], v.p()), t)
        if v.t in WORD and t == 'u8':
            return V('BitVec.setWidth 8 %s' % v.p(), 'u8')
        if t == 'u16' and C.is_int(v.t):
            v = self.promote(v)
            if v.rng and 0 <= v.rng[0] and v.rng[1] < 65536:
                return V(v.e, 'u16', v.rng)
            return V('%s %% 65536' % v.p(), 'u16')
        if t == ('ptr', 'void') and C.is_ptr(v.t):
            return V(v.e, C.PTR8)
        return super().conv(v, t)

    def unary(self, e):
        if e[1] == '~':
            v = self.ev(e[2])
            if v.t in WORD:
                return V('~~~%s' % v.p(), v.t)
        return super().unary(e)

    def binop(self, e):
        op = e[1]
        if op in ('<<', '>>', '^', '&', '|', '!=', '==', '>=', '-'):
            n = len(self.lines)
            t0 = self.tmp
            a = self.ev(e[2])
            if a.t in WORD and op in ('<<', '>>'):
                b = self.promote(self.ev(e[3]))
                if b.lit is not None:
                    assert b.lit < WORD[a.t]
                    return V('%s %s %d' % (a.p(), '<<<' if op == '<<' else '>>>', b.lit), a.t)
                return V(self.bind('%ssh%s %s %s' % (a.t, 'l' if op == '<<' else 'r', a.p(), b.p())), a.t)
            if op in ('^', '&', '|', '!=', '=='):
                b = self.ev(e[3])
                w = next((x.t for x in (a, b) if x.t in WORD), None)
                if w:
                    # a literal of a wider type is below 2^32, so the operation gives the same word
                    a, b = self.conv(a, w), self.conv(b, w)
                    if op in ('!=', '=='):
                        return V('(if %s %s %s then 1 else 0)' % (a.p(), '≠' if op == '!=' else '=', b.p()), 'int', (0, 1))
                    return V('%s %s %s' % (a.p(), {'^': '^^^', '&': '&&&', '|': '|||'}[op], b.p()), w)
            if a.t == 'int' and not a.rng:
                # an int which may be negative: the pattern of the value mod 2^32
                if op == '>=' and e[3] == ('num', 0, 'int'):
                    return V('(if %s < 2147483648 then 1 else 0)' % a.p(), 'int', (0, 1))
                if op == '-' and e[3] == ('num', 1, 'int'):
                    return V(self.bind('idec %s' % a.p()), 'int')
            del self.lines[n:]
            self.tmp = t0
        return super().binop(e)

    def load(self, lv):
        if lv[0] == 'mem' and lv[3] in WORD:
            w = WORD[lv[3]]
            if lv[1] in C.TABLES:
                return V(self.bind('tget%d %s %s' % (w, lv[1], par(self.unscale(lv[2], w // 8)))), lv[3])
            n = self.fresh()
            self.out('let %s : BitVec %d ← ld%d %s %s' % (n, w, w, par(lv[1]), par(lv[2])))
            return V(n, lv[3])
        if lv[0] == 'field':
            s = self.load(lv[1])
            if lv[3][0] == 'arr':
                return V('%s.%s' % (s.p(), lv[2]), ('ptr', lv[3][1]))
            if C.is_struct(lv[3]):
                return V('%s.%s' % (s.p(), lv[2]), lv[3])
        return super().load(lv)

    def unscale(self, o, n):
        if o.isdigit():
            assert int(o) % n == 0
            return str(int(o) // n)
        assert o.startswith('%d * ' % n)
        return o[4:]

    def store(self, lv, v):
        if lv[0] == 'mem' and lv[3] in WORD:
            v = self.conv(v, lv[3])
            self.out('st%d %s %s %s' % (WORD[lv[3]], par(lv[1]), par(lv[2]), v.p()))
            return
        super().store(lv, v)

    def load_struct(self, lv):
        if lv[0] == 'field':
            return '%s.%s' % (self.load_struct(lv[1]), lv[2])
        return super().load_struct(lv)

    def store_struct(self, lv, e):
        if lv[0] == 'field':
            assert lv[1][0] == 'var'
            n = lname(lv[1][1])
            self.out('let %s := { %s with %s := %s }' % (n, n, lv[2], e))
            return
        super().store_struct(lv, e)

    def assigned_in(self, stmts):
        res = super().assigned_in(stmts)
        s = repr(stmts)
        # structures passed by the address of a member
        extra = set(re.findall(r"\('un', '&', \('member', \('un', '\*', \('var', '(\w+)'\)\), 'sponge'\)\)", s))
        return [n for n in self.scope if n in res or (n in extra and n in self.inout)]

    def call(self, f, args):
        if f in ('ROUND', 'LASTROUND'):
            i, x, y = self.ev(args[0]), args[1][1], args[2][1]
            for g in (x, 'C'):
                if g not in self.assigned:
                    self.err('%s read before assignment' % g)
            if f == 'ROUND':
                n = self.bind('thetaRhoPiChiIotaPrepareTheta %s %s C' % (i.p(), x))
                self.out('let %s : %s := %s.1' % (y, leantype(GROUP[0]), n))
                self.out('let C : %s := %s.2' % (leantype(GROUP[1]), n))
            else:
                n = self.bind('thetaRhoPiChiIota %s %s C' % (i.p(), x))
                self.out('let %s : %s := %s' % (y, leantype(GROUP[0]), n))
                self.assigned.discard('C')
            self.assigned.discard(x)
            self.assigned.add(y)
            return None
        if f.startswith('_mm256_'):
            return self.intrinsic(f, args)
        if f == 'bswap64':
            return V('bswap64 %s' % self.conv(self.ev(args[0]), 'w64').p(), 'w64')
        return super().call(f, args)

    def intrinsic(self, f, args):
        if f == '_mm256_load_si256':
            a = args[0]
            while a[0] == 'cast':
                a = a[2]
            if a[:2] == ('un', '&') and a[2][0] == 'var' and a[2][1] in C.TABLES:
                return V(self.bind('tget256 %s' % a[2][1]), 'v256')
            return V(self.bind('%s %s' % (f, self.ev(a).p())), 'v256')
        if f == '_mm256_store_si256':
            a = args[0]
            while a[0] == 'cast':
                a = a[2]
            p, v = self.ev(a), self.ev(args[1])
            assert v.t == 'v256'
            self.out('%s %s %s' % (f, p.p(), v.p()))
            return None
        if f in ('_mm256_slli_epi64', '_mm256_srli_epi64'):
            a, n = self.ev(args[0]), self.promote(self.ev(args[1]))
            assert a.t == 'v256' and n.lit is not None
            return V('%s %s %d' % (f, a.p(), n.lit), 'v256')
        if f == '_mm256_set1_epi64x':
            a = self.ev(args[0])
            assert a.t == 'w64'
            return V('%s %s' % (f, a.p()), 'v256')
        assert f in ('_mm256_xor_si256', '_mm256_andnot_si256', '_mm256_or_si256', '_mm256_shuffle_epi8'), f
        a, b = self.ev(args[0]), self.ev(args[1])
        assert a.t == b.t == 'v256', (f, a.t, b.t)
        return V('%s %s %s' % (f, a.p(), b.p()), 'v256')

    def declare(self, s):
        _, n, t, init = s
        if init is not None and init[0] == 'list':
            leaf, cnt = flat(t)
            assert t[0] == 'arr' and len(init[1]) == cnt
            super().declare(('decl', n, t, None))
            for i, x in enumerate(init[1]):
                self.exprstmt(('assign', ('index', ('var', n), ('num', i, 'int')), x))
            return
        super().declare(s)


def voidp(t):
    return C.PTR8 if t == ('ptr', 'void') else t


def box_params(u, consts):
    """parameters and constants whose address is taken become arrays with one element"""
    kind, name, ret, params, body, a, b = u
    names = set(re.findall(r"\('un', '&', \('var', '(\w+)'\)\)", repr(body)))
    pre = []

    def repl(s, n, m):
        if s == ('un', '&', ('var', n)):
            return ('var', m)
        if s == ('sizeof_e', ('var', n)):
            return ('sizeof_e', ('var', m))
        if isinstance(s, list):
            return [repl(x, n, m) for x in s]
        if isinstance(s, tuple):
            return tuple(repl(x, n, m) for x in s)
        return s
    for n, t in params:
        if n in names and C.is_int(t):
            m = n + '_p'
            body = repl(body, n, m)
            pre += [('decl', m, ('arr', t, 1), None),
                    ('expr', ('assign', ('index', ('var', m), ('num', 0, 'int')), ('var', n)))]
    for n, t, v in consts:
        if n in names:
            body = repl(body, n, n)
            pre += [('decl', n, ('arr', t, 1), None),
                    ('expr', ('assign', ('index', ('var', n), ('num', 0, 'int')), ('num', v, 'int')))]
    return (kind, name, ret, [(n, voidp(t)) for n, t in params], pre + body, a, b)


def header(name, args, rt):
    out, cur = [], 'def %s' % name
    for ar in args:
        if len(cur) + len(ar) > 112:
            out.append(cur)
            cur = '    ' + ar
        else:
            cur += ' ' + ar
    out.append(cur + ' : CM %s := do' % (par(rt) if ' ' in rt else rt))
    return out


def postinc(toks):
    """`*(p++)` in a statement: the access at p, and p++ at the end of the statement; a pointer into a constant table is
    an index"""
    out, later, i = [], [], 0
    while i < len(toks):
        w = [t[1] for t in toks[i:i + 5]]
        l = toks[i][2]
        if w[:2] == ['*', '('] and w[3:] == ['++', ')']:
            assert w[2] not in later
            later.append(w[2])
            out += C.tokenize('%s[%s]' % (TABPTR[w[2]], w[2]) if w[2] in TABPTR else '(*%s)' % w[2], l)
            i += 5
            continue
        if w[0] == '*' and w[1] in TABPTR and w[2] != '=':
            out += C.tokenize('%s[%s]' % (TABPTR[w[1]], w[1]), l)
            i += 2
            continue
        if w[0] == '*' and w[1] in TABPTR:
            # const uint32_t *p = table + e
            assert [t[1] for t in out[-2:]] == ['const', 'uint32_t'] and w[3:] == [TABPTR[w[1]], '+']
            out[-2:] = C.tokenize('unsigned int %s =' % w[1], l)
            i += 5
            continue
        out.append(toks[i])
        i += 1
        if w[0] == ';':
            for p in later:
                out += C.tokenize('%s++;' % p, l)
            later = []
    return [(a, b, l if hasattr(l, 'f') else Ln(l, '')) for a, b, l in out]


TABPTR = {}


def macro_fun(cpp, name, params, ins, outs, out, extra=(), group=True, tail=''):
    """the macro `name` as a function: `ins` are its arguments [(macro argument, lean name, type)], `outs` the groups
    which hold the result"""
    mps, body, ln = cpp.raw[name]
    toks = cpp.subst(mps or [], body, [C.tokenize(p) for p in params], ln)
    saved = dict(cpp.m)
    if group:
        for k in OVERRIDE:
            cpp.m.pop(k, None)
    toks = postinc(cpp.expand(toks) + C.tokenize(tail))
    cpp.m = saved
    p = Parser([(a, b, ln) for a, b, _ in toks], str(ln.f))
    stmts = []
    while p.i < len(p.t):
        stmts += p.stmt()
    C.FUNS[name] = (outs[0][1] if outs else 'void', [(n, t) for n, t in ins], [], [])
    f = Fn(name, 'void', [], C.boxed(stmts), ln.f)

    def names(g, t):
        return [g + s for s in fields(t)]

    def fields(t):
        return [s + h for s in SUB for h in '01'] if t == HALVES else SUB if t == GROUP[0] else list('aeiou')
    for n, t in ins:
        if t in GROUP[:2] and group:
            for x, fl in zip(names(n, t), fields(t)):
                f.scope[x] = GROUP[2]
                f.assigned.add(x)
                f.out('let %s : %s := %s.%s' % (x, leantype(GROUP[2]), n, fl))
        else:
            f.scope[n] = t
            f.assigned.add(n)
    for n, t in list(outs) + list(extra):
        if group and t in GROUP[:2]:
            for x in names(n, t):
                f.scope.setdefault(x, GROUP[2])
        else:
            f.scope.setdefault(n, t)
    f.stack = [[]]

    def fin():
        f.free_stack(0)
        rs = []
        for n, t in outs:
            if group and t in GROUP[:2]:
                for x in names(n, t):
                    if x not in f.assigned:
                        f.err('%s not assigned' % x)
                rs.append('⟨%s⟩' % ', '.join(names(n, t)))
            else:
                rs.append(n)
        f.out('pure %s' % (rs[0] if len(rs) == 1 else '(%s)' % ', '.join(rs) if rs else '()'))
    f.seq(f.body, fin)
    end = ln
    src = open(os.path.join(REPO, ln.f)).read().split('\n')
    e = ln - 1
    while src[e].rstrip().endswith('\\'):
        e += 1
    rt = ' × '.join(leantype(t) for _, t in outs) if outs else 'Unit'
    out.append('/-- %s:%d-%d `%s`. -/' % (ln.f, ln, e + 1, name))
    out += header(name, ['(%s : %s)' % (lname(n), leantype(t)) for n, t in ins], rt)
    out += f.lines
    out.append('')


# the functions on four states which the sponge of four states is built on: fields of `P4Impl`
P4 = ['KeccakP1600times4_' + k for k in ('StaticInitialize', 'InitializeAll', 'AddByte', 'AddBytes',
                                         'PermuteAll_24rounds', 'ExtractBytes')]
# the sponge of one state: fields of `SpImpl`
P1 = ['KeccakWidth1600_Sponge' + k for k in ('Initialize', 'Absorb', 'AbsorbLastFewBits', 'Squeeze')]
# name of the parameter, its type, the fields, the functions which take it as argument
PARAMS = [('K1', 'SpImpl', P1, set()), ('K4', 'P4Impl', P4, set())]


def tr_units(units, out, only, par=False):
    consts = [(u[1], u[2], u[3]) for u in units if u[0] == 'const']
    funs = [box_params(u, consts) for u in units if u[0] == 'fun' and only(u[1])]
    funs = [u[:4] + (C.boxed(u[4]),) + u[5:] for u in funs]
    known = {u[1]: u for u in funs}
    for u in funs:
        C.FUNS[u[1]] = (u[2], u[3], C.inout_params(u[1], u[3], u[4]), [])
    done, order = set(), []

    def visit(n):
        if n in done:
            return
        done.add(n)
        for c in sorted(C.calls(known[n][4])):
            if c in known:
                visit(c)
        order.append(n)
    for u in funs:
        visit(u[1])
    for n in order:
        _, _, ret, ps, body, a, b = known[n]
        fn = Fn(n, ret, ps, body, a.f)
        lines = fn.emit()
        gen = []
        for k, ty, fs, users in PARAMS if par else []:
            pat = re.compile(r'(?<![\w.])(%s)\b' % '|'.join(fs + sorted(users)))
            new = [pat.sub(lambda m: k + '.' + m.group(1) if m.group(1) in fs else m.group(1) + ' ' + k, l) for l in lines]
            if new != lines:
                users.add(n)
                gen, lines = gen + ['(%s : %s)' % (k, ty)], new
        io = C.FUNS[n][2]
        rts = ([] if ret == 'void' else [leantype(ret)]) + [leantype(ps[i][1][1]) for i in io]
        rt = ' × '.join(rts) if rts else 'Unit'
        out.append('/-- %s:%d-%d `%s`. -/' % (a.f, a, b, n))
        out += header(n, gen + ['(%s : %s)' % (lname(pn), leantype(pt[1]) if i in io else leantype(pt))
                          for i, (pn, pt) in enumerate(ps)], rt)
        out += lines
        out.append('')


def write(module, src, imports, out, ns='Faest.GenH'):
    with open(os.path.join(OUT, module + '.lean'), 'w') as fh:
        fh.write('/-\nGenerated by tools/c2hash.py from %s. Do not edit.\n-/\n' % src)
        for im in imports:
            fh.write('import Verif.Model.%s\n' % im)
        fh.write('\nset_option linter.unusedVariables false\n\nnamespace %s\nopen Faest.C\n\n' % ns)
        fh.write('\n'.join(out))
        fh.write('\nend %s\n' % ns)


def cpp_file(path, defined=(), impl='sha3/opt64', override=OVERRIDE, be=False):
    cpp = CPP([os.path.join(REPO, 'sha3'), os.path.join(REPO, impl), REPO], override, defined, be)
    cpp.run(os.path.join(REPO, path))
    return cpp


def unit_filter(f):
    """keep the functions defined in these files"""
    return lambda us: [u for u in us if u[0] != 'fun' or u[5].f in f]


def table64(units, out, word='w64'):
    for u in units:
        if u[0] == 'table':
            _, n, t, vals, a, b = u
            assert t[1] == word and len(vals) == t[2]
            C.TABLES[n] = ('arr', word, t[2])
            out.append('/-- %s:%d-%d -/' % (a.f, a, b))
            out.append('def %s : List (BitVec %d) := [' % (n, WORD[word]))
            for i in range(0, len(vals), 3):
                out.append('  ' + ', '.join('0x%0*x' % (WORD[word] // 4, v) for v in vals[i:i + 3]) +
                           (']' if i + 3 >= len(vals) else ','))
            out.append('')


def main():
    os.makedirs(OUT, exist_ok=True)
    # ---- sha3/opt64
    cpp = cpp_file('sha3/opt64/KeccakP-1600-opt64.c')
    units = Parser(cpp.out, 'KeccakP-1600-opt64.c').translation_unit()
    out = []
    table64(units, out)
    loc = [('C', PAR), ('D', PAR)] + [('B', LANES)]
    macro_fun(cpp, 'prepareTheta', [], [('A', LANES)], [('C', PAR)], out)
    macro_fun(cpp, 'thetaRhoPiChiIotaPrepareTheta', ['i', 'A', 'E'], [('i', 'u32'), ('A', LANES), ('C', PAR)],
              [('E', LANES), ('C', PAR)], out, loc)
    macro_fun(cpp, 'thetaRhoPiChiIota', ['i', 'A', 'E'], [('i', 'u32'), ('A', LANES), ('C', PAR)], [('E', LANES)],
              out, loc)
    macro_fun(cpp, 'rounds24', [], [('A', LANES)], [('A', LANES)], out, [('C', PAR), ('E', LANES)], group=False)
    P64 = ('ptr', 'w64')
    macro_fun(cpp, 'copyFromState', ['X', 'state'], [('state', P64)], [('X', LANES)], out)
    macro_fun(cpp, 'copyToState', ['state', 'X'], [('state', P64), ('X', LANES)], [], out)
    macro_fun(cpp, 'addInput', ['X', 'input', 'laneCount'], [('X', LANES), ('input', P64), ('laneCount', 'u32')],
              [('X', LANES)], out)
    skip = re.compile(r'Overwrite|ExtractAndAdd|Nrounds|12rounds')
    tr_units(units, out, lambda n: not skip.search(n))
    write('KeccakP', 'sha3/opt64/KeccakP-1600-opt64.c, its macro files and sha3/SnP-Relaned.h', ['CHash'], out)
    # ---- sponge and hash
    out = []
    for path in ('sha3/KeccakSponge.c', 'sha3/KeccakHash.c'):
        cpp = cpp_file(path)
        units = Parser(cpp.out, path).translation_unit()
        tr_units(units, out, lambda n: '12rounds' not in n and n != 'KeccakWidth1600_Sponge', path == 'sha3/KeccakHash.c')
    write('KeccakHash', 'sha3/KeccakSponge.c, KeccakSponge.inc and KeccakHash.c', ['P4Impl', 'Gen.KeccakP'], out)
    # the same text with the headers of plain32, avx2 and armv8a-neon
    for impl in ('sha3/plain32', 'sha3/avx2', 'sha3/armv8a-neon'):
        again = []
        for path in ('sha3/KeccakHash.c',):
            cpp = cpp_file(path, impl=impl, override=dict(OVERRIDE, FORCE_SYSV=''))
            tr_units(Parser(cpp.out, path).translation_unit(), again, lambda n: True, True)
        assert again == out[-len(again):]
    # ---- the sponge over the functions in assembler: `c0` are the registers before a call
    saved = PARAMS[:]
    for impl, module, ns in (('avx2', 'AsmC', 'GenX'), ('armv8a-neon', 'NeonC', 'GenN')):
        out = []
        cpp = cpp_file('sha3/KeccakSponge.c', impl='sha3/' + impl, override=dict(OVERRIDE, FORCE_SYSV=''))
        # a function here (KeccakP-1600-SnP.h of both directories); the other prototypes are those of opt64
        C.FUNS['KeccakP1600_AddByte'] = ('void', [('state', C.PTR8), ('data', 'u8'), ('offset', 'u32')], [], [])
        asm = {'KeccakP1600_' + k for k in ('Initialize', 'AddByte', 'AddBytes', 'Permute_24rounds', 'ExtractBytes')}
        PARAMS[:] = [('c0', 'Asm.Cpu' if impl == 'avx2' else 'A64.Cpu', [], asm | {'KeccakF1600_FastLoop_Absorb'})]
        tr_units(Parser(cpp.out, 'sha3/KeccakSponge.c').translation_unit(), out,
                 lambda n: '12rounds' not in n and n != 'KeccakWidth1600_Sponge', True)
        del C.FUNS['KeccakP1600_AddByte']
        if impl == 'avx2':
            write('KeccakSpongeAsm', 'sha3/KeccakSponge.c and KeccakSponge.inc with the headers of sha3/avx2', [module], out, 'Faest.' + ns)
            continue
        # four states: the file of opt64, which includes the headers in its own directory
        path = 'sha3/opt64/KeccakP-1600-times4-on1.c'
        cpp = cpp_file(path, impl='sha3/' + impl)
        skip = re.compile(r'Overwrite|ExtractAndAdd|LanesAll|_\d+rounds')
        tr_units(Parser(cpp.out, path).translation_unit(), out, lambda n: not skip.search(n) or n.endswith('PermuteAll_24rounds'), True)
        write('KeccakNeonC', 'sha3/KeccakSponge.c and KeccakSponge.inc with the headers of sha3/armv8a-neon, and from '
              'sha3/opt64/KeccakP-1600-times4-on1.c and PlSnP-Fallback.inc', [module], out, 'Faest.' + ns)
    PARAMS[:] = saved
    out = []
    skip = re.compile(r'Overwrite|ExtractAndAdd|LanesAll|_\d+rounds')
    for path in ('sha3/opt64/KeccakP-1600-times4-on1.c', 'sha3/KeccakSpongetimes4.c', 'sha3/KeccakHashtimes4.c'):
        cpp = cpp_file(path)
        units = Parser(cpp.out, path).translation_unit()
        par = 'opt64' not in path
        at = len(out)
        tr_units(units, out, lambda n: not skip.search(n) or n.endswith('PermuteAll_24rounds'), par)
        # the same text with the headers of avx2, plain32 and armv8a-neon
        over = dict(OVERRIDE, KeccakP1600times4_StaticInitialize='KeccakP1600times4_StaticInitialize()',
                    KeccakP1600times4_AddByte='KeccakP1600times4_AddByte(states, instanceIndex, byte, offset)')
        for impl, over in (('sha3/avx2', over), ('sha3/plain32', OVERRIDE), ('sha3/armv8a-neon', OVERRIDE)) if par else ():
            again = []
            cpp = cpp_file(path, impl=impl, override=over)
            tr_units(Parser(cpp.out, path).translation_unit(), again, lambda n: not skip.search(n), par)
            assert again == out[at:], (path, impl)
    write('KeccakHashX4', 'sha3/opt64/KeccakP-1600-times4-on1.c, PlSnP-Fallback.inc, sha3/KeccakSpongetimes4.c, '
          'KeccakSpongetimes4.inc and KeccakHashtimes4.c', ['Gen.KeccakHash'], out)
    # ---- random oracles
    out = []
    cpp = cpp_file('random_oracle.c', ['WITH_KECCAK_X4'])
    units = Parser(cpp.out, 'random_oracle.c').translation_unit()
    tr_units(units, out, lambda n: 'uint16' not in n, True)
    write('RandomOracle', 'hash_shake.h and random_oracle.c', ['Gen.KeccakHashX4'], out)
    big_endian()
    # ---- sha3/avx2, four states
    out = []
    GROUP[:] = [LANES4, PAR4, 'v256']
    C.BASE.update({'lanes': LANES4, 'parities': PAR4})
    over = dict(OVERRIDE, ATTRIBUTE_TARGET_AVX2='', KeccakP1600times4_AddByte=None)
    cpp = cpp_file('sha3/avx2/KeccakP-1600-times4-SIMD256.c', impl='sha3/avx2', override=over)
    p = Parser(cpp.out, 'KeccakP-1600-times4-SIMD256.c')
    p.keep = ['KeccakP1600times4_' + k for k in ('InitializeAll', 'AddBytes', 'ExtractBytes', 'PermuteAll_24rounds')]
    units = p.translation_unit()
    table64(units, out)
    loc = [('C', PAR4), ('D', PAR4), ('B', LANES4)] + [('C%s1' % x, 'v256') for x in 'aeiou']
    macro_fun(cpp, 'prepareTheta', [], [('A', LANES4)], [('C', PAR4)], out)
    macro_fun(cpp, 'thetaRhoPiChiIotaPrepareTheta', ['i', 'A', 'E'], [('i', 'u32'), ('A', LANES4), ('C', PAR4)],
              [('E', LANES4), ('C', PAR4)], out, loc)
    macro_fun(cpp, 'thetaRhoPiChiIota', ['i', 'A', 'E'], [('i', 'u32'), ('A', LANES4), ('C', PAR4)], [('E', LANES4)],
              out, loc)
    macro_fun(cpp, 'rounds24', [], [('A', LANES4)], [('A', LANES4)], out, [('C', PAR4), ('E', LANES4)], group=False)
    P256 = ('ptr', 'v256')
    macro_fun(cpp, 'copyFromState', ['X', 'state'], [('state', P256)], [('X', LANES4)], out)
    macro_fun(cpp, 'copyToState', ['state', 'X'], [('state', P256), ('X', LANES4)], [], out)
    macro_fun(cpp, 'KeccakP1600times4_AddByte', ['states', 'instanceIndex', 'byte', 'offset'],
              [('states', C.PTR8), ('instanceIndex', 'u32'), ('byte', 'u8'), ('offset', 'u32')], [], out, group=False, tail=';')
    tr_units(units, out, lambda n: True)
    write('KeccakAvx2', 'sha3/avx2/KeccakP-1600-times4-SIMD256.c and KeccakP-1600-times4-SnP.h', ['CVec'], out, 'Faest.GenA')
    plain32()


def big_endian():
    """sha3/opt64 and the sponge on a big-endian host: what depends on the byte order, or calls what does"""
    out = []
    path = 'sha3/opt64/KeccakP-1600-opt64.c'
    cpp, le = cpp_file(path, be=True), cpp_file(path)
    P64 = ('ptr', 'w64')
    # the rounds are the text of the little-endian host
    for k in ('prepareTheta', 'thetaRhoPiChiIotaPrepareTheta', 'thetaRhoPiChiIota', 'rounds24'):
        assert [t[:2] for t in cpp.raw[k][1]] == [t[:2] for t in le.raw[k][1]]
    macro_fun(cpp, 'copyFromState', ['X', 'state'], [('state', P64)], [('X', LANES)], out)
    macro_fun(cpp, 'copyToState', ['state', 'X'], [('state', P64), ('X', LANES)], [], out)
    macro_fun(cpp, 'addInput', ['X', 'input', 'laneCount'], [('X', LANES), ('input', P64), ('laneCount', 'u32')],
              [('X', LANES)], out)
    skip = re.compile(r'Overwrite|ExtractAndAdd|Nrounds|12rounds')
    tr_units(Parser(cpp.out, path).translation_unit(), out, lambda n: not skip.search(n))
    path = 'sha3/KeccakSponge.c'
    tr_units(Parser(cpp_file(path, be=True).out, path).translation_unit(), out,
             lambda n: '12rounds' not in n and n != 'KeccakWidth1600_Sponge')
    skip = re.compile(r'Overwrite|ExtractAndAdd|LanesAll|_\d+rounds')
    path = 'sha3/opt64/KeccakP-1600-times4-on1.c'
    tr_units(Parser(cpp_file(path, be=True).out, path).translation_unit(), out,
             lambda n: not skip.search(n) or n.endswith('PermuteAll_24rounds'))
    del C.FUNS['KeccakP1600_AddByte']
    # the rest of the hash layer is the text of the little-endian host
    for path, d in (('sha3/KeccakHash.c', []), ('sha3/KeccakSpongetimes4.c', []), ('sha3/KeccakHashtimes4.c', []),
                    ('random_oracle.c', ['WITH_KECCAK_X4'])):
        x, y = [Parser(cpp_file(path, d, be=b).out, path).translation_unit() for b in (False, True)]
        assert repr([u for u in x if 'uint16' not in u[1]]) == repr([u for u in y if 'uint16' not in u[1]]), path
    out = [re.sub(r'\brounds24\b', 'GenH.rounds24', re.sub(r'\b(ld|st)64\b', r'\g<1>64be', l)) for l in out]
    write('KeccakBe', 'sha3/opt64/KeccakP-1600-opt64.c, its macro files, sha3/SnP-Relaned.h, sha3/KeccakSponge.c, KeccakSponge.inc, '
          'sha3/opt64/KeccakP-1600-times4-on1.c and PlSnP-Fallback.inc, for a big-endian host', ['CHashBe', 'Gen.KeccakP'], out, 'Faest.GenB')


def plain32():
    """sha3/plain32: words of 32 bits, lanes interleaved; the sponge and the four states over it"""
    out = []
    GROUP[:] = [HALVES, None, 'w32']
    C.BASE['uint32_t'] = 'w32'
    TABPTR['pRoundConstants'] = 'KeccakF1600RoundConstants_int2'
    path = 'sha3/plain32/KeccakP-1600-inplace32BI.c'
    over = {'KeccakRound%d' % k: 'pRoundConstants = KeccakRound%d(stateAsHalfLanes, pRoundConstants)' % k for k in range(4)}
    cpp = cpp_file(path, impl='sha3/plain32', override=over)
    skip = re.compile(r'Overwrite|ExtractAndAdd|12rounds|SetBytes')
    Parser.fall = True
    p = Parser(postinc(cpp.out), path)
    p.keep = ['KeccakP1600_' + k for k in ('Initialize', 'AddByte', 'AddBytesInLane', 'AddLanes', 'AddBytes', 'ExtractBytesInLane',
                                           'ExtractLanes', 'ExtractBytes', 'Permute_Nrounds', 'Permute_24rounds')]
    units = p.translation_unit()
    table64(units, out, 'w32')
    loc = [(n, 'w32') for n in ['B' + v for v in 'aeiou'] + ['D' + v + h for v in 'aeiou' for h in '01'] + ['Cx', 'Cy', 'Cz', 'Cw']]
    names = [s + h for s in SUB for h in '01']
    # the names of the words of the state
    src = open(os.path.join(REPO, path)).read()
    at = [(m.group(1), int(m.group(2))) for m in re.finditer(r'#define (A\w\w[01])\s+stateAsHalfLanes\[\s*(\d+)\]', src)]
    assert sorted(n for n, _ in at) == sorted('A' + n for n in names) and len(at) == 50
    at = dict(at)
    out += ['/-- %s `Aba0` .. `Asu1`: the words of the state. -/' % path, 'def readHalves (stateAsHalfLanes : CPtr) : CM Halves := do']
    out += ['  let A%s ← ld32 stateAsHalfLanes %d' % (n, 4 * at['A' + n]) for n in names]
    out += ['  pure ⟨%s⟩' % ', '.join('A' + n for n in names), '']
    out += ['/-- %s `Aba0` .. `Asu1`: the words of the state. -/' % path,
            'def writeHalves (stateAsHalfLanes : CPtr) (A : Halves) : CM Unit := do']
    out += ['  st32 stateAsHalfLanes %d A.%s' % (4 * at['A' + n], n) for n in names] + ['']
    for k in range(4):
        o = []
        nm = 'KeccakRound%d' % k
        macro_fun(cpp, nm, [], [('A', HALVES), ('pRoundConstants', 'u32')], [('A', HALVES), ('pRoundConstants', 'u32')], o, loc, tail=';')
        o[1] = o[1].replace(nm, nm + '_words')
        out += o
        out += ['/-- The macro on the words of the state in memory. -/',
                'def %s (stateAsHalfLanes : CPtr) (pRoundConstants : Nat) : CM Nat := do' % nm,
                '  let A ← readHalves stateAsHalfLanes',
                '  let e ← %s_words A pRoundConstants' % nm,
                '  writeHalves stateAsHalfLanes e.1',
                '  pure e.2', '']
        C.FUNS[nm] = ('u32', [('stateAsHalfLanes', ('ptr', 'w32')), ('pRoundConstants', 'u32')], [], [])
    tr_units(units, out, lambda n: True)
    write('KeccakP32', path + ' and sha3/SnP-Relaned.h', ['CHalf'], out, 'Faest.GenP')
    out = []
    cpp = cpp_file('sha3/KeccakSponge.c', impl='sha3/plain32')
    units = Parser(cpp.out, 'sha3/KeccakSponge.c').translation_unit()
    tr_units(units, out, lambda n: '12rounds' not in n and n != 'KeccakWidth1600_Sponge')
    cpp = cpp_file('sha3/plain32/KeccakP-1600-times4-on1.c', impl='sha3/plain32')
    units = Parser(cpp.out, 'times4').translation_unit()
    skip = re.compile(r'Overwrite|ExtractAndAdd|LanesAll|_\d+rounds')
    tr_units(units, out, lambda n: not skip.search(n) or n.endswith('PermuteAll_24rounds'))
    write('KeccakHash32', 'sha3/KeccakSponge.c, KeccakSponge.inc, sha3/plain32/KeccakP-1600-times4-on1.c and PlSnP-Fallback.inc',
          ['Gen.KeccakP32'], out, 'Faest.GenP')
    plain32_be(over, p.keep, at, names)


def plain32_be(over, keep, at, names):
    """sha3/plain32 on a big-endian host; the rounds are the text of the little-endian host"""
    out = []
    path = 'sha3/plain32/KeccakP-1600-inplace32BI.c'
    cpp, le = [cpp_file(path, impl='sha3/plain32', override=over, be=b) for b in (True, False)]
    for k in ('KeccakRound0', 'KeccakRound1', 'KeccakRound2', 'KeccakRound3'):
        assert [t[:2] for t in cpp.raw[k][1]] == [t[:2] for t in le.raw[k][1]]
    p = Parser(postinc(cpp.out), path)
    p.keep = keep
    units = p.translation_unit()
    out += ['/-- %s `Aba0` .. `Asu1`: the words of the state. -/' % path, 'def readHalves (stateAsHalfLanes : CPtr) : CM Halves := do']
    out += ['  let A%s ← ld32 stateAsHalfLanes %d' % (n, 4 * at['A' + n]) for n in names]
    out += ['  pure ⟨%s⟩' % ', '.join('A' + n for n in names), '']
    out += ['/-- %s `Aba0` .. `Asu1`: the words of the state. -/' % path,
            'def writeHalves (stateAsHalfLanes : CPtr) (A : Halves) : CM Unit := do']
    out += ['  st32 stateAsHalfLanes %d A.%s' % (4 * at['A' + n], n) for n in names] + ['']
    for k in range(4):
        out += ['/-- The macro on the words of the state in memory. -/',
                'def KeccakRound%d (stateAsHalfLanes : CPtr) (pRoundConstants : Nat) : CM Nat := do' % k,
                '  let A ← readHalves stateAsHalfLanes',
                '  let e ← GenP.KeccakRound%d_words A pRoundConstants' % k,
                '  writeHalves stateAsHalfLanes e.1',
                '  pure e.2', '']
    tr_units(units, out, lambda n: True)
    units = Parser(cpp_file('sha3/KeccakSponge.c', impl='sha3/plain32', be=True).out, 'sha3/KeccakSponge.c').translation_unit()
    tr_units(units, out, lambda n: '12rounds' not in n and n != 'KeccakWidth1600_Sponge')
    units = Parser(cpp_file('sha3/plain32/KeccakP-1600-times4-on1.c', impl='sha3/plain32', be=True).out, 'times4').translation_unit()
    skip = re.compile(r'Overwrite|ExtractAndAdd|LanesAll|_\d+rounds')
    tr_units(units, out, lambda n: not skip.search(n) or n.endswith('PermuteAll_24rounds'))
    out = [re.sub(r'\bKeccakF1600RoundConstants_int2\b', 'GenP.KeccakF1600RoundConstants_int2',
                  re.sub(r'\b(ld|st)32\b', r'\g<1>32be', l)) for l in out]
    write('KeccakP32be', path + ', sha3/SnP-Relaned.h, sha3/KeccakSponge.c, KeccakSponge.inc, '
          'sha3/plain32/KeccakP-1600-times4-on1.c and PlSnP-Fallback.inc, for a big-endian host',
          ['CHashBe', 'Gen.KeccakP32'], out, 'Faest.GenPB')


if __name__ == '__main__':
    main()
