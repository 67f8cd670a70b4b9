#!/usr/bin/env python3
"""Test of the translation of c2leak.py: evaluate the translated program with the arithmetic of C and compare with the
test vectors of /repo/tests/test_faest_tvs.cpp.  Only the translation is evaluated, not the C code.

usage: runleak.py REPO [--build=NAME] [set ...], with a name of c2leak.BUILDS
"""
import os
import re
import sys
sys.path.insert(0, os.path.dirname(os.path.abspath(__file__)))
sets = [a for a in sys.argv[2:] if not a.startswith('--build=')]
build = [a[8:] for a in sys.argv[2:] if a.startswith('--build=')] or ['Prog']
sys.argv = [sys.argv[0], sys.argv[1], '', build[0], '']
import c2leak as L

MASK = {'u8': 0xff, 'u16': 0xffff, 'u32': 0xffffffff, 'u64': 0xffffffffffffffff}

ORDER = 'big' if L.BE else 'little'


class Blk:
    __slots__ = ('d', 'c')

    def __init__(self, n):
        self.d, self.c = bytearray(n), {}


def wr(t, x):
    if t == 'i32':
        return '((%s) + 0x80000000 & 0xffffffff) - 0x80000000' % x
    if t == 'bool':
        return 'int((%s) != 0)' % x
    return '(%s) & %d' % (x, MASK[t])


def pe(e):
    k = e[0]
    if k == 'var':
        return 'v%d' % e[1]
    if k == 'lit':
        return '(%d)' % e[1]
    if k == 'glob':
        return 'G%d' % e[1]
    if k == 'un':
        a = pe(e[2])
        if e[1] == 'lnot':
            return '(0 if %s else 1)' % a
        o, t = e[1]
        return '(%s)' % wr(t, {'neg': '-%s', 'bnot': '~%s', 'cast': '%s'}[o] % a)
    if k == 'bin':
        a, b = pe(e[2]), pe(e[3])
        if isinstance(e[1], str):
            return '(1 if %s %s %s else 0)' % (a, {'eq': '==', 'ne': '!=', 'lt': '<', 'le': '<=', 'gt': '>', 'ge': '>='}[e[1]], b)
        o, t = e[1]
        if o == 'vec':
            return 'vec%d(%s, %s)' % (t, a, b)
        s = {'add': '+', 'sub': '-', 'mul': '*', 'band': '&', 'bor': '|', 'bxor': '^', 'shl': '<<', 'shr': '>>'}[o]
        x = '%s %s %s' % (a, s, b)
        if o in ('band', 'bor', 'bxor', 'shr'):
            return '(%s)' % x
        return '(%s)' % wr(t, x)
    if k == 'div':
        return '(%s %s %s)' % (pe(e[2]), '//' if e[1][0] == 'div' else '%', pe(e[3]))
    if k == 'padd':
        return 'padd(%s, %s, %d)' % (pe(e[1]), pe(e[2]), e[3])
    if k == 'ld':
        return 'ld(%s, %d)' % (pe(e[2]), e[1])
    if k == 'cell':
        return 'cell(%s, %d)' % (pe(e[1]), e[2])


def pb(ss, ind, out, step=None):
    p = ' ' * ind
    if not ss:
        out.append(p + 'pass')
    for s in ss:
        k = s[0]
        if k == 'asg':
            out.append(p + 'v%d = %s' % (s[1], pe(s[2])))
        elif k == 'st':
            out.append(p + 'st(%s, %d, %s)' % (pe(s[2]), s[1], pe(s[3])))
        elif k == 'stc':
            out.append(p + 'stc(%s, %d, %s)' % (pe(s[1]), s[2], pe(s[3])))
        elif k == 'ite':
            out.append(p + 'if %s:' % pe(s[1]))
            pb(s[2], ind + 1, out, step)
            out.append(p + 'else:')
            pb(s[3], ind + 1, out, step)
        elif k == 'loop':
            out.append(p + 'while %s:' % pe(s[1]))
            pb(s[2], ind + 1, out, s[3])
            pb(s[3], ind + 1, out, None)
        elif k == 'brk':
            out.append(p + 'break')
        elif k == 'cont':
            pb(step, ind, out, None)
            out.append(p + 'continue')
        elif k == 'ret':
            out.append(p + 'return %s' % pe(s[1]))
        elif k == 'call':
            c = 'f_%s(%s)' % (s[2], ', '.join(pe(a) for a in s[3]))
            out.append(p + (c if s[1] is None else 'v%d = %s' % (s[1], c)))
        elif k == 'new':
            out.append(p + 'v%d = (Blk(%s), 0)' % (s[1], pe(s[2])))
        elif k == 'free':
            out.append(p + 'pass')


def padd(a, i, s):
    return (a[0], a[1] + i * s) if i < 2 ** 63 else (a[0], a[1] + (i - 2 ** 64) * s)


def ld(a, w):
    b, o = a
    if o < 0 or o + w > len(b.d):
        raise IndexError('read')
    return int.from_bytes(b.d[o:o + w], ORDER)


def st(a, w, v):
    b, o = a
    if o < 0 or o + w > len(b.d):
        raise IndexError('write')
    b.d[o:o + w] = (v & ((1 << (8 * w)) - 1)).to_bytes(w, ORDER)


def cell(a, k):
    return a[0].c[a[1] + k]


def stc(a, k, v):
    a[0].c[a[1] + k] = v


def lanes(f, *vs):
    """on the four 64-bit lanes"""
    ls = [[v >> 64 * i & MASK['u64'] for i in range(4)] for v in vs]
    return sum((f(*x) & MASK['u64']) << 64 * i for i, x in enumerate(zip(*ls)))


def shuffle(a, p):
    b, (n, p) = p
    r, i = 0, 0
    while True:
        k, p = p if isinstance(p, tuple) else (p, None)
        r |= ((a | b << 64 * n) >> 64 * k & MASK['u64']) << 64 * i
        if p is None:
            return r
        i += 1


def pshufb(a, m):
    r = 0
    for i in range(32):
        k = m >> 8 * i & 255
        r |= 0 if k & 128 else (a >> 8 * (i & 16 | k & 15) & 255) << 8 * i
    return r


VECS = {'xor_si256': lambda a, b: a ^ b, 'andnot_si256': lambda a, b: ~a & b & (1 << 256) - 1, 'or_si256': lambda a, b: a | b,
        'slli_epi64': lambda a, n: lanes(lambda x: x << n, a), 'srli_epi64': lambda a, n: lanes(lambda x: x >> n, a),
        'shuffle_epi8': pshufb, 'set1_epi64x': lambda a, _: sum(a << 64 * i for i in range(4))}


def main():
    tvs = open(os.path.join(L.REPO, 'tests/test_faest_tvs.cpp')).read()
    vec = {}
    for ns, body in re.findall(r'namespace (faest_\w+)_tvs \{(.*?)\} // namespace', tvs, re.S):
        for n, x in re.findall(r'(\w+)\s*= (\{.*?\}|faest_\w+::\w+);', body, re.S):
            vec[(ns, n)] = bytes(int(h, 16) for h in re.findall(r'0x(\w\w)', x)) if x[0] == '{' else \
                vec[(x.split('_tvs')[0], n)]
    msg = re.search(r'message =\s*"([^"]*)"', tvs).group(1).encode()
    L.front()
    L.lower(L.entries())
    src = []
    for f, l in L.LOWERED.items():
        src.append('def f_%s(%s):' % (f, ', '.join('v%d' % i for i in range(l.arity))))
        pb(l.body, 1, src)
        src.append(' return 0')
    env = dict(Blk=Blk, padd=padd, ld=ld, st=st, cell=cell, stc=stc)
    env.update(vec0=lambda a, b: (a, b), vec20=lambda a, n: sum(a << 64 * i for i in range(n)),
               vec21=lambda a, b: a ^ b, vec22=lambda a, b: a & b, vec23=lambda a, b: a | b,
               vec24=lambda a, b: lanes(lambda x, n: x << n, a, b), vec25=lambda a, b: lanes(lambda x, n: x >> n, a, b),
               vec26=shuffle)
    for n, f in VECS.items():
        env['vec%d' % L.VEC['_mm256_' + n][1]] = f
    for g, i in L.GLOBIX.items():
        b = Blk(0)
        t, ln = L.GLOBALS[g]
        b.d = bytearray(L.INITS.get(g, bytes(64)))
        env['G%d' % i] = (b, 0)
    exec(compile('\n'.join(src), 'leak', 'exec'), env)

    def blk(x):
        b = Blk(0)
        b.d = bytearray(x)
        return (b, 0)
    for s in L.c2lean.SETS:
        n = 'faest_' + s['PARAM_L']
        if sets and n not in sets:
            continue
        sk, pk, rho, want = [vec[(n, k)] for k in ('packed_sk', 'packed_pk', 'randomness', 'signature')]
        out = blk(bytes(len(want)))
        sig = (Blk(0), 0)
        for k in range(3):
            sig[0].c[k] = out                     # the three views of the signature buffer
        r = env['f_%s_sign_with_randomness' % n](blk(sk), blk(msg), len(msg), blk(rho), len(rho), sig,
                                                 blk(len(want).to_bytes(8, ORDER)))
        v = env['f_%s_validate_keypair' % n](blk(pk), blk(sk))
        print(build[0], n, 'sign', r, bytes(out[0].d) == want, 'validate', v, flush=True)


main()
