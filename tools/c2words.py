#!/usr/bin/env python3
"""Translate the field arithmetic (fields.h, fields.c) and the byte helpers of compat.h into Lean definitions.

usage: c2words.py REPO OUTDIR

Values are passed by value here, so the target is simpler than that of c2lean.py: every function becomes a function
into `Option` over the words of Verif/Model/FieldWords.lean.  `uint8_t` is `BitVec 8`, `uint64_t` is `BitVec 64`,
`int` is `BitVec 32` (the translator computes ranges and refuses a text in which a signed operation could overflow),
`unsigned int` and `size_t` are natural numbers (again with ranges; an operation that could wrap is reduced).
A field element is the vector of its words.  A pointer is a buffer with an offset.  Loops have constant bounds.
Three builds are translated: without vector extensions, with them and `__builtin_shufflevector`, with them and without
`__builtin_shufflevector`; loads and stores also for big-endian hosts.
"""
import os
import sys
import c2lean
from c2lean import Macros, Parser, preprocess, const_eval

REPO, OUT = sys.argv[1], sys.argv[2]
c2lean.BASE['size_t'] = 'sz'
c2lean.SKIP_MACROS.clear()
WANT_SKIP = {'bf8_rand', 'bf64_rand', 'bf128_rand', 'bf192_rand', 'bf256_rand'}


class WParser(Parser):
    def braces(self):
        self.need('{')
        vals = []
        while not self.eat('}'):
            vals.append(self.braces() if self.peek() == '{' else self.assign())
            self.eat(',')
        return ('init', vals)

    def translation_unit(self):
        funs = []
        while self.i < len(self.t):
            if self.eat(';'):
                continue
            if self.peek() == 'typedef':
                depth = 0
                while True:
                    v = self.next()
                    depth += v == '{'
                    depth -= v == '}'
                    if v == ';' and depth == 0:
                        break
                continue
            line = self.line()
            t = self.pointers(self.base_type())
            name = self.next()
            if self.peek() == '(':
                self.next()
                params = []
                while not self.eat(')'):
                    if self.peek() == 'void' and self.peek(1) == ')':
                        self.next()
                        continue
                    pt = self.pointers(self.base_type())
                    params.append((self.next(), pt))
                    self.eat(',')
                if self.eat(';'):
                    continue
                if name in WANT_SKIP:
                    depth = 0
                    while True:
                        v = self.next()
                        depth += v == '{'
                        depth -= v == '}'
                        if depth == 0:
                            break
                    continue
                funs.append(('fun', name, t, params, self.block(), line, None))
                funs[-1] = funs[-1][:6] + (self.t[self.i - 1][2],)
            else:
                t = self.array_suffix(t)
                self.need('=')
                v = self.braces()
                self.need(';')
                funs.append(('table', name, t, v, line, self.t[self.i - 1][2]))
        return funs

    def decl(self):
        base = self.base_type()
        t = self.pointers(base)
        n = self.next()
        init = None
        if self.eat('='):
            init = self.braces() if self.peek() == '{' else self.assign()
        return [('decl', n, t, init)]


def leaves(v):
    return [v] if v[0] != 'init' else [x for w in v[1] for x in leaves(w)]


class W:
    """a value: Lean text, C type, range (for int, u32, sz)"""
    def __init__(self, e, t, lo=None, hi=None):
        self.e, self.t, self.lo, self.hi = e, t, lo, hi

    def p(self):
        return self.e if ' ' not in self.e or (self.e[0] in '(#' and c2lean.match_paren(self.e)) else '(%s)' % self.e


NAT = ('u32', 'sz')
TOP = {'u32': 2 ** 32, 'sz': 2 ** 64}


class Build:
    def __init__(self, vec, builtin, be):
        self.vec, self.builtin, self.be = vec, builtin, be

    def k(self, n):
        return (4 if n == 192 else n // 64) if self.vec else n // 64

    def ltype(self, t):
        if t == 'u8':
            return 'Byte'
        if t == 'int':
            return 'BitVec 32'
        if t in ('u64', ('bf', 64)):
            return 'U64'
        if t in NAT:
            return 'Nat'
        return 'Ws %d' % self.k(t[1])


class Fn:
    def __init__(self, b, f, sigs):
        self.b, self.sigs = b, sigs
        _, self.name, self.ret, self.params, self.body, self.l0, self.l1 = f
        self.env = {}
        self.buf = []
        self.ind = 2
        self.n = 0
        self.outs = []

    def err(self, m):
        raise SyntaxError('%s: %s' % (self.name, m))

    def out(self, s):
        self.buf.append(' ' * self.ind + s)

    def tmp(self, e):
        self.n += 1
        self.out('let x%d ← %s' % (self.n, e))
        return 'x%d' % self.n

    # ---- conversions
    def lit(self, n, t):
        if t == 'u8':
            return '%d#8' % n
        if t == 'int':
            return '%d#32' % (n % 2 ** 32)
        if t == 'u64':
            return '%d#64' % n
        return str(n)

    def num(self, v):
        return v.lo if v.lo is not None and v.lo == v.hi else None

    def conv(self, v, t):
        if t == ('bf', 64):
            t = 'u64'
        if v.t == t:
            return v
        c = self.num(v)
        if v.t == 'int' and c is not None and (c >= 0 or t in ('u64',)):
            if t == 'u64':
                return W(self.lit(c % 2 ** 64, 'u64'), 'u64')
            if t == 'u8':
                return W(self.lit(c % 256, 'u8'), 'u8', c % 256, c % 256)
            return W(str(c), t, c, c)
        if v.t == 'u8' and t in ('int',):
            return W('%s.zeroExtend 32' % v.p(), 'int', *(self.rng(v)))
        if v.t == 'u8' and t == 'u64':
            return W('%s.zeroExtend 64' % v.p(), 'u64')
        if v.t == 'int' and t == 'u8':
            return W('%s.truncate 8' % v.p(), 'u8')
        if v.t == 'int' and t == 'u64':
            return W('%s.%s 64' % (v.p(), 'zeroExtend' if v.lo >= 0 else 'signExtend'), 'u64')
        if v.t in NAT and t in NAT and v.hi < TOP[t]:
            return W(v.e, t, v.lo, v.hi)
        self.err('conversion %s to %s of %s' % (v.t, t, v.e))

    def rng(self, v):
        if v.lo is not None:
            return v.lo, v.hi
        if v.t == 'u8':
            return 0, 255
        if v.t in NAT:
            return 0, TOP[v.t] - 1
        return None, None

    def promote(self, v):
        return self.conv(v, 'int') if v.t == 'u8' else v

    def usual(self, a, b):
        a, b = self.promote(a), self.promote(b)
        for t in ('u64', 'sz', 'u32', 'int'):
            if t in (a.t, b.t):
                return self.conv(a, t), self.conv(b, t)
        self.err('operands %s %s' % (a.t, b.t))

    def asint(self, lo, hi, e):
        if lo < -2 ** 31 or hi >= 2 ** 31:
            self.err('signed overflow possible: ' + e)
        return W(e, 'int', lo, hi)

    # ---- expressions
    def isvec(self, t):
        return isinstance(t, tuple) and t[0] == 'bf' and t[1] != 64

    def ev(self, e):
        k = e[0]
        if k == 'num':
            if e[2] == 'int':
                return W(self.lit(e[1], 'int'), 'int', e[1], e[1])
            if e[2] == 'u64':
                return W(self.lit(e[1], 'u64'), 'u64')
            return W(str(e[1]), 'u32', e[1], e[1])
        if k == 'sizeof_t':
            n = {'u64': 8}[e[1]]
            return W(str(n), 'sz', n, n)
        if k == 'sizeof_e':
            t = self.env[e[1][1]][0]
            n = {'u8': 1, 'u64': 8, ('bf', 64): 8}[t]
            return W(str(n), 'sz', n, n)
        if k == 'var':
            if e[1] in self.sigs and self.sigs[e[1]][0] == 'table':
                return W(e[1], ('table', self.sigs[e[1]][1]))
            t, lo, hi, un = self.env[e[1]]
            if un:
                return W(self.tmp('whole %d %s' % (self.b.k(t[1]), c2lean.lname(e[1]))), t)
            return W(c2lean.lname(e[1]), 'u64' if t == ('bf', 64) else t, lo, hi)
        if k == 'cast':
            return self.conv(self.ev(e[2]), e[1])
        if k == 'call':
            return self.call(e[1], e[2])
        if k == 'member' or k == 'index':
            return self.access(e)
        if k == 'un':
            return self.unary(e)
        if k == 'bin':
            return self.binop(e)
        self.err('expression %r' % (e,))

    def word(self, e):
        """(variable or expression, index) if e selects a word of a field element"""
        if e[0] == 'index' and e[1][0] == 'member' and e[1][2] == 'values' and not self.b.vec:
            return e[1][1], e[2]
        if e[0] == 'index' and self.b.vec and e[1][0] == 'var' and e[1][1] in self.env and self.isvec(self.env[e[1][1]][0]):
            return e[1], e[2]
        return None

    def nat(self, e):
        v = self.ev(e)
        if v.t == 'int' and self.num(v) is not None:
            return W(str(self.num(v)), 'u32', v.lo, v.hi)
        if v.t not in NAT:
            self.err('index')
        return v

    def access(self, e):
        w = self.word(e)
        if w:
            i = self.nat(w[1])
            if w[0][0] == 'var' and self.env[w[0][1]][3]:
                return W(self.tmp('rd %s %s' % (c2lean.lname(w[0][1]), i.p())), 'u64')
            v = self.ev(w[0])
            if self.num(i) is not None and i.hi < self.b.k(v.t[1]):
                return W('%s[%d]' % (v.p(), i.lo), 'u64')
            return W(self.tmp('bfValue %s %s' % (v.p(), i.p())), 'u64')
        if e[0] == 'index' and e[1][0] == 'var':
            n = e[1][1]
            i = self.nat(e[2])
            if n in self.sigs:
                return W(self.tmp('%s[%s]?' % (n, i.e)), self.sigs[n][1])
            t = self.env[n][0]
            if t[0] == 'ptr':
                return W(self.tmp('rd %s (%s_o + %s)' % (n, n, i.p())), t[1])
        self.err('access %r' % (e,))

    def unary(self, e):
        op = e[1]
        if op == '*' and e[2][0] == 'var':
            n = e[2][1]
            t = self.env[n][0]
            return W(self.tmp('rd %s %s_o' % (n, n)), t[1], *((0, 255) if t[1] == 'u8' else (None, None)))
        v = self.promote(self.ev(e[2]))
        if op == '-':
            if v.t == 'u64':
                return W('-%s' % v.p(), 'u64')
            if v.t == 'int':
                lo, hi = self.rng(v)
                return self.asint(-hi, -lo, '-%s' % v.p())
            if v.t == 'u32':
                return W('(2 ^ 32 - %s) %% 2 ^ 32' % v.p(), 'u32', 0, 2 ** 32 - 1)
        if op == '~' and v.t == 'int':
            lo, hi = self.rng(v)
            return self.asint(-hi - 1, -lo - 1, '~~~%s' % v.p())
        if op == '!' and v.t == 'int':
            return W('notInt %s' % v.p(), 'int', 0, 1)
        self.err('unary %s %s' % (op, v.t))

    def binop(self, e):
        op = e[1]
        a, b = self.ev(e[2]), self.ev(e[3])
        if op in ('<<', '>>'):
            a = self.promote(a)
            if b.t == 'int' and self.num(b) is not None:
                b = W(str(self.num(b)), 'u32', b.lo, b.hi)
            if b.t not in NAT:
                self.err('shift amount')
            if self.isvec(a.t):
                if b.hi >= 64:
                    self.err('shift')
                return W('%s %s %s' % ('vShl' if op == '<<' else 'vShr', a.p(), b.p()), a.t)
            width = 64 if a.t == 'u64' else 32
            if a.t in NAT:
                self.err('shift of index')
            if b.lo < 0 or b.hi >= width:
                self.err('shift amount not bounded: ' + b.e)
            if self.num(a) is not None and self.num(b) is not None and a.t == 'int':
                n = a.lo << b.lo if op == '<<' else a.lo >> b.lo
                return W(self.lit(n, 'int'), 'int', n, n)
            s = '%s %s %s' % (a.p(), '<<<' if op == '<<' else '>>>', b.p())
            if a.t == 'u64':
                return W(s, 'u64')
            lo, hi = self.rng(a)
            if lo < 0:
                self.err('shift of a negative number')
            return self.asint(0, hi << b.hi, s) if op == '<<' else self.asint(0, hi, s)
        if self.isvec(a.t) or self.isvec(b.t):
            if not self.b.vec:
                self.err('vector operation')
            if a.t == b.t:
                return W('%s %s %s' % ({'^': 'vXor', '|': 'vOr', '&': 'vAnd'}[op], a.p(), b.p()), a.t)
            if op == '&' and b.t == 'u64':
                return W('vAndS %s %s' % (a.p(), b.p()), a.t)
            self.err('vector operation %s' % op)
        a, b = self.usual(a, b)
        if op in ('&', '|', '^'):
            s = '%s %s %s' % (a.p(), op * 3, b.p())
            if a.t == 'u64':
                return W(s, 'u64')
            (l1, h1), (l2, h2) = self.rng(a), self.rng(b)
            if a.t == 'int' and self.num(a) is not None and self.num(b) is not None:
                n = {'&': a.lo & b.lo, '|': a.lo | b.lo, '^': a.lo ^ b.lo}[op]
                return W(self.lit(n, 'int'), 'int', n, n)
            if op == '&' and (l1 >= 0 or l2 >= 0):
                return W(s, a.t, 0, min(h for l, h in ((l1, h1), (l2, h2)) if l >= 0))
            m = max(abs(l1), abs(h1) + 1, abs(l2), abs(h2) + 1)
            k = 1
            while k < m:
                k *= 2
            return W(s, a.t, 0 if min(l1, l2) >= 0 else -k, k - 1)
        if a.t in NAT or (a.t == 'int' and self.num(a) is not None and self.num(b) is not None):
            (l1, h1), (l2, h2) = self.rng(a), self.rng(b)
            if a.t == 'int':
                n = {'+': l1 + l2, '-': l1 - l2, '*': l1 * l2, '/': l1 // l2 if l2 else 0, '%': l1 % l2 if l2 else 0}[op]
                return W(self.lit(n, 'int'), 'int', n, n)
            s = '%s %s %s' % (a.p(), op, b.p())
            if op == '-' and l1 >= h2:
                return W(s, a.t, l1 - h2, h1 - l2)
            if op == '+' and h1 + h2 < TOP[a.t]:
                return W(s, a.t, l1 + l2, h1 + h2)
            if op == '/' and l2 > 0:
                return W(s, a.t, l1 // h2, h1 // l2)
            if op == '%' and l2 > 0:
                return W(s, a.t, 0, min(h1, h2 - 1))
            if op == '*' and h1 * h2 < TOP[a.t]:
                return W(s, a.t, l1 * l2, h1 * h2)
        self.err('binary %s %s' % (op, a.t))

    def call(self, f, args):
        if f in ('UINT64_C', 'UINT8_C'):
            n = const_eval(args[0])
            return W(self.lit(n, 'u64'), 'u64') if f == 'UINT64_C' else W(self.lit(n, 'int'), 'int', n, n)
        if f in ('le64toh', 'htole64'):
            return W('le64 %s %s' % ('true' if self.b.be else 'false', self.conv(self.ev(args[0]), 'u64').p()), 'u64')
        if f == '__builtin_shufflevector':
            a, b = self.ev(args[0]), self.ev(args[1])
            return W('shuffle %s %s #v[%s]' % (a.p(), b.p(), ', '.join(str(const_eval(x)) for x in args[2:])), a.t)
        if f == 'ARRAY_SIZE':
            v = self.env[args[0][1][1]][0]
            n = self.b.k(v[1])
            return W(str(n), 'sz', n, n)
        kind, ret, params = self.sigs[f]
        vs = []
        for (pn, pt), a in zip(params, args):
            if pt[0] == 'ptr':
                vs.append('%s %s_o' % (a[1], a[1]))
            else:
                vs.append(self.conv(self.ev(a), pt).p() if not self.isvec(pt) else self.ev(a).p())
        r = self.tmp(' '.join([f] + vs))
        return W(r, 'u64' if ret == ('bf', 64) else ret, *((0, 255) if ret == 'u8' else (None, None)))

    # ---- statements
    def assigned(self, ss):
        out = []
        for s in ss:
            if s[0] == 'expr':
                e = s[1]
                if e[0] == 'assign':
                    l = e[1]
                    w = self.word(l) if l[0] == 'index' else None
                    out.append(w[0][1] if w else (l[1] if l[0] == 'var' else l[2][1]))
                elif e[0] == 'call' and e[1] == 'memcpy':
                    d = e[2][0]
                    if d[0] == 'un' and d[1] == '&':
                        out.append(d[2][1] if d[2][0] == 'var' else self.word(d[2])[0][1])
                    else:
                        out.append(d[1])
            elif s[0] == 'for':
                out += self.assigned(s[4]) + self.assigned([('expr', x) for x in s[3][1:]])
            elif s[0] == 'block':
                out += self.assigned(s[1])
        return out

    def init(self, t, v):
        vals = [self.conv(self.ev(x), 'u64').e for x in leaves(v)]
        return '#v[%s]' % ', '.join(vals)

    def store(self, l, v):
        w = self.word(l) if l[0] == 'index' else None
        if w:
            n = w[0][1]
            i = self.nat(w[1])
            v = self.conv(v, 'u64')
            t, lo, hi, un = self.env[n]
            if un:
                self.out('let %s ← wr %s %s %s' % (n, n, i.p(), v.p()))
            elif self.num(i) is not None and i.hi < self.b.k(t[1]):
                self.out('let %s := %s.set %d %s' % (n, n, i.lo, v.p()))
            else:
                self.out('let %s ← setWord %s %s %s' % (n, n, i.p(), v.p()))
            return
        if l[0] == 'var':
            n = l[1]
            t = self.env[n][0]
            if t[0] == 'ptr':
                self.err('pointer')
            if not self.isvec(t):
                v = self.conv(v, t)
            self.out('let %s := %s' % (c2lean.lname(n), v.e))
            self.env[n] = (t, v.lo if t in NAT else None, v.hi if t in NAT else None, False)
            return
        if l[0] == 'un' and l[1] == '*':
            n = l[2][1]
            self.out('let %s ← wr %s %s_o %s' % (n, n, n, self.conv(v, self.env[n][0][1]).p()))
            return
        self.err('store')

    def memcpy(self, args):
        be = 'true' if self.b.be else 'false'
        n = self.nat(args[2])
        d, s = args[0], args[1]
        if d[0] == 'un' and d[1] == '&':
            x, i = (d[2][1], None) if d[2][0] == 'var' else (self.word(d[2])[0][1], self.nat(self.word(d[2])[1]))
            t, lo, hi, un = self.env[x]
            if t in ('u64', ('bf', 64)):
                self.out('let %s ← objIn %s 1 %s %s_o %s' % (x, be, s[1], s[1], n.p()))
                self.out('let %s := %s[0]' % (x, x))
                self.env[x] = (t, None, None, False)
                return
            if not un:
                self.err('memcpy to initialised object')
            self.out('let %s ← memIn %s %s %s %s %s_o %s' % (x, be, x, i.p() if i else '0', s[1], s[1], n.p()))
            return
        if s[0] == 'un' and s[1] == '&':
            x = s[2][1]
            t = self.env[x][0]
            v = '#v[%s]' % x if t in ('u64', ('bf', 64)) else x
            self.out('let %s ← memOut %s %s %s_o %s %s' % (d[1], be, d[1], d[1], v, n.p()))
            return
        self.err('memcpy')

    def stmts(self, ss):
        for s in ss:
            k = s[0]
            if self.done:
                break
            if k == 'block':
                self.stmts(s[1])
            elif k == 'decl':
                _, n, t, init = s
                ln = c2lean.lname(n)
                if init is None:
                    if self.isvec(t):
                        self.out('let %s : Mem U64 := malloc %d' % (ln, self.b.k(t[1])))
                        self.env[n] = (t, None, None, True)
                    else:
                        self.env[n] = (t, None, None, True)
                elif init[0] == 'init':
                    self.out('let %s : %s := %s' % (ln, self.b.ltype(t), self.init(t, init)))
                    self.env[n] = (t, None, None, False)
                else:
                    v = self.ev(init)
                    if not self.isvec(t):
                        v = self.conv(v, t)
                    self.out('let %s : %s := %s' % (ln, self.b.ltype(t), v.e))
                    self.env[n] = (t, v.lo, v.hi, False) if t in NAT else (t, None, None, False)
            elif k == 'expr':
                e = s[1]
                if e[0] == 'assign':
                    self.store(e[1], self.ev(e[2]))
                elif e[0] == 'call' and e[1] == 'memcpy':
                    self.memcpy(e[2])
                else:
                    self.err('statement %r' % (e,))
            elif k == 'for':
                self.loop(s)
            elif k == 'return':
                v = self.ev(s[1])
                if not self.isvec(self.ret):
                    v = self.conv(v, self.ret)
                self.out('pure %s' % v.p())
                self.done = True
            else:
                self.err('statement %s' % k)

    def loop(self, s):
        _, init, c, step, body = s
        (_, i, it, i0), = init
        lo = self.num(self.ev(i0))
        if not (c[0] == 'bin' and c[1] in ('<', '!=') and c[2] == ('var', i)):
            self.err('loop')
        hi = self.num(self.ev(c[3]))
        if step[0] != ('assign', ('var', i), ('bin', '+', ('var', i), ('num', 1, 'int'))) or lo > hi:
            self.err('loop')
        vs = []
        for v in self.assigned(body):
            if v == i:
                self.err('loop variable assigned')
            if v in self.env and v not in vs:
                vs.append(v)
        ptrs = [x[1][1] for x in step[1:]]
        for x in step[1:]:
            if not (x[0] == 'assign' and x[2][0] == 'bin' and x[2][1] == '+' and self.env[x[1][1]][0][0] == 'ptr'):
                self.err('loop step')
        names = [c2lean.lname(v) for v in vs] + [p + '_o' for p in ptrs]
        tup = '(%s)' % ', '.join(names) if len(names) > 1 else names[0]
        self.n += 1
        st = 's%d' % self.n
        self.out('let %s ← forR %d %d %s (fun %s %s => do' % (st, lo, hi, tup, i, st))

        def untup():
            if len(names) == 1:
                self.out('let %s := %s' % (names[0], st))
            else:
                for j, n in enumerate(names):
                    self.out('let %s := %s' % (n, st + '.2' * j + ('.1' if j < len(names) - 1 else '')))
        saved = dict(self.env)
        self.ind += 2
        untup()
        self.env[i] = (it, lo, hi - 1, False)
        for v in vs:
            t, _, _, un = self.env[v]
            self.env[v] = (t, None, None, un)
        self.stmts(body)
        if self.done:
            self.err('return in loop')
        for x in step[1:]:
            self.out('let %s_o := %s_o + %s' % (x[1][1], x[1][1], self.nat(x[2][3]).p()))
        self.out('pure %s)' % tup)
        self.ind -= 2
        self.env = saved
        for v in vs:
            t, _, _, un = self.env[v]
            self.env[v] = (t, None, None, un)
        untup()

    def emit(self, src):
        ps = []
        for n, t in self.params:
            if t[0] == 'ptr':
                ps.append('(%s : Mem %s) (%s_o : Nat)' % (n, 'Byte' if t[1] == 'u8' else '(%s)' % self.b.ltype(t[1]), n))
                self.env[n] = (t, None, None, False)
            else:
                ps.append('(%s : %s)' % (c2lean.lname(n), self.b.ltype(t)))
                self.env[n] = (t, 0 if t in NAT else None, TOP[t] - 1 if t in NAT else None, False)
        self.done = False
        self.stmts(self.body)
        rt = None
        if self.ret == 'void':
            d = [n for n, t in self.params if t == ('ptr', 'u8')]
            self.out('pure %s' % d[0])
            rt = 'Mem Byte'
        else:
            rt = self.b.ltype(self.ret)
        return '/-- %s:%d-%d `%s`. -/\ndef %s %s: Option (%s) := do\n%s\n' % (
            src, self.l0, self.l1, self.name, self.name, ''.join(p + ' ' for p in ps), rt, '\n'.join(self.buf))


def translate(b, ns, module, only=None):
    c2lean.DEFINED.clear()
    if b.vec:
        c2lean.DEFINED.add('HAVE_ATTR_VECTOR_SIZE')
    if b.be:
        c2lean.DEFINED.add('FAEST_IS_BIG_ENDIAN')
    old = c2lean.cond_value
    if b.builtin:
        c2lean.cond_value = lambda e: old(e.replace('__has_builtin(__builtin_shufflevector)', '1'))
    mac = Macros()
    mac.m['CHAR_BIT'] = (None, [('num', '8', 0)])
    items = []
    for f in ['compat.h', 'fields.h', 'fields.c']:
        toks = mac.expand(preprocess(os.path.join(REPO, f), mac))
        if f == 'compat.h':
            i = next(j for j, t in enumerate(toks) if t[1] == 'rotl8') - 3
            keep = []
            for name in ('rotl8', 'rotr8', 'parity8'):
                j = next(j for j, t in enumerate(toks) if t[1] == name and toks[j + 1][1] == '(')
                a = j
                while toks[a][1] not in (';', '}'):
                    a -= 1
                d, e = 0, j
                while True:
                    d += toks[e][1] == '{'
                    d -= toks[e][1] == '}'
                    e += 1
                    if d == 0 and toks[e - 1][1] == '}':
                        break
                keep += [t for t in toks[a + 1:e] if t[1] not in ('ATTR_CONST', 'ATTR_ARTIFICIAL')]
            toks = keep
        items += [(f, x) for x in WParser(toks, f).translation_unit()]
    for n in (128, 192, 256) if b.vec else ():
        # the function-like macros of the interface, as functions
        for nm, ps in (('add', 'bf%d_t lhs, bf%d_t rhs' % (n, n)), ('mul_bit', 'bf%d_t lhs, uint8_t rhs' % n)):
            ln = next(i for i, l in enumerate(open(os.path.join(REPO, 'fields.h')), 1) if l.startswith('#define bf%d_%s(' % (n, nm)))
            text = 'bf%d_t M(%s) { return bf%d_%s(lhs, rhs); }' % (n, ps, n, nm)
            x, = WParser(mac.expand(c2lean.tokenize(text, ln)), 'fields.h').translation_unit()
            items.append(('fields.h', ('fun', 'bf%d_%s' % (n, nm)) + x[2:]))
    c2lean.cond_value = old
    sigs = {}
    for f, x in items:
        if x[0] == 'fun':
            sigs[x[1]] = ('fun', x[2], x[3])
        else:
            sigs[x[1]] = ('table', x[2][1])
    out = ['/-\nGenerated by tools/c2words.py from compat.h, fields.h and fields.c; do not edit.\n%s\n-/\nimport Verif.Model.WSem\n\nnamespace Faest.GenF.%s\n\nopen Faest.Words Faest.Words.Impl\n'
           % (('With' if b.vec else 'Without') + ' vector extensions' + ((', with ' if b.builtin else ', without ') + '__builtin_shufflevector' if b.vec else '')
              + (', big endian' if b.be else ', little endian') + '.', ns)]
    def names(e):
        if isinstance(e, (tuple, list)):
            r = [e[1]] if len(e) > 1 and e[0] in ('call', 'var') and isinstance(e[1], str) else []
            return r + [n for y in e for n in names(y)]
        return []

    byname = {x[1]: (f, x) for f, x in items}
    order = []

    def visit(n):
        if n in order or n not in byname:
            return
        for m in names(byname[n][1][4 if byname[n][1][0] == 'fun' else 3]):
            if m != n:
                visit(m)
        order.append(n)
    for f, x in items:
        visit(x[1])
    for f, x in [byname[n] for n in order]:
        if only is not None and x[1] not in only:
            continue
        if x[0] == 'table':
            t = x[2]
            g = Fn(b, ('fun', x[1], None, [], [], 0, 0), sigs)
            rows = [g.init(t[1], r) for r in x[3][1]]
            out.append('/-- %s:%d-%d `%s`. -/\ndef %s : List (%s) := [\n  %s]\n' % (f, x[4], x[5], x[1], x[1], b.ltype(t[1]), ',\n  '.join(rows)))
        else:
            out.append(Fn(b, x, sigs).emit(f))
    out.append('end Faest.GenF.%s\n' % ns)
    open(os.path.join(OUT, module + '.lean'), 'w').write('\n'.join(out))


LS = {'bf64_load', 'bf64_store'} | {'bf%d_%s' % (n, o) for n in (128, 192, 256) for o in ('load', 'store')}
for ns, vec, bi in (('S', False, False), ('VB', True, True), ('VF', True, False)):
    translate(Build(vec, bi, False), ns, 'Fields' + ns)
    translate(Build(vec, bi, True), ns + '.BE', 'Fields' + ns + 'be', LS)
