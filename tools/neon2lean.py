#!/usr/bin/env python3
"""Translate sha3/armv8a-neon/KeccakP-1600-armv8a-neon.s to Lean (Verif/Model/Gen/KeccakNeon.lean).

Usage: neon2lean.py REPO OUT

Macros are expanded.  The functions which the library uses are translated instruction by instruction; the others are left
out.  An instruction or operand which is not known stops the tool.
"""
import re
import sys

SRC = 'sha3/armv8a-neon/KeccakP-1600-armv8a-neon.s'
USED = ['KeccakP1600_Initialize', 'KeccakP1600_AddByte', 'KeccakP1600_AddBytes', 'KeccakP1600_ExtractBytes',
        'KeccakP1600_Permute_24rounds', 'KeccakP1600_Permute']
REGS = ['x0', 'x1', 'x2', 'x3', 'x4', 'x5', 'x10', 'x11']
VECS = ['v%d' % i for i in range(32) if not 8 <= i <= 15]


def die(n, msg):
    sys.exit(f'{SRC}:{n}: {msg}')


def value(n, s):
    if not re.fullmatch(r'[\da-fA-Fx+\-*/&() ]+', s):
        die(n, f'expression {s}')
    return eval(s.replace('/', '//'), {'__builtins__': {}})


def expand(lines, macros):
    """macros, then .if/.else/.endif"""
    st = []
    for n, s in lines:
        w = s.split(None, 1)
        if w[0] == '.if':
            m = re.fullmatch(r'(.*)!=\s*0', w[1])
            st.append(value(n, m.group(1)) != 0)
        elif w[0] == '.else':
            st[-1] = not st[-1]
        elif w[0] == '.endif':
            st.pop()
        elif not all(st):
            continue
        elif w[0] in macros:
            pars, body = macros[w[0]]
            args = [x.strip() for x in w[1].split(',')] if len(w) > 1 else []
            assert len(args) == len(pars)
            new = []
            for k, t in body:
                for p, a in zip(pars, args):
                    t = re.sub(r'\\' + p + r'\b', lambda _: a, t)
                t = t.replace(r'\()', '')
                if '\\' in t:
                    die(k, t)
                new.append((k, t))
            yield from ((n, t) for _, t in expand(new, macros))
        else:
            yield n, s
    assert not st


def split_ops(s):
    r, d, cur = [], 0, ''
    for ch in s:
        d += (ch in '[{') - (ch in ']}')
        if ch == ',' and d == 0:
            r.append(cur.strip())
            cur = ''
        else:
            cur += ch
    if cur.strip():
        r.append(cur.strip())
    return r


def reg(n, s, w='x'):
    if s[:1] == w and 'x' + s[1:] in REGS:
        return '.x' + s[1:]
    die(n, f'register {s}')


def vec(n, s, arr):
    if not s.endswith('.' + arr) or s[:-len(arr) - 1] not in VECS:
        die(n, f'vector register {s}')
    return '.' + s[:-len(arr) - 1]


def lane(n, s):
    m = re.fullmatch(r'(v\d+)\.(?:2d|d)\[([01])\]', s)
    if not m or m.group(1) not in VECS:
        return None
    return f'.{m.group(1)} {"true" if m.group(2) == "1" else "false"}'


def imm(n, s):
    if s[:1] != '#':
        die(n, f'number {s}')
    return value(n, s[1:])


def adr(n, o):
    m = re.fullmatch(r'\[\s*(\w+)\s*(?:,\s*(\w+)\s*)?\]', o[0])
    if not m:
        die(n, f'address {o}')
    if m.group(2):
        assert len(o) == 1
        return f'(.idx {reg(n, m.group(1))} {reg(n, m.group(2))})'
    if len(o) == 1:
        return f'(.base {reg(n, m.group(1))})'
    return f'(.post {reg(n, m.group(1))} {imm(n, o[1])})'


def op(n, m, o, syms):
    if m in ('ld4', 'st4'):
        k = re.fullmatch(r'\{(.*)\}', o[0])
        vs = [vec(n, x.strip(), '2d') for x in k.group(1).split(',')]
        assert len(vs) == 4
        a = adr(n, o[1:])
        assert 'post' not in a or a.endswith(' 64)')
        return f'.{m} {" ".join(vs)} {a}'
    if m in ('ld1', 'st1'):
        k = re.fullmatch(r'\{\s*(v\d+)\.d\s*\}\[0\]', o[0])
        a = adr(n, o[1:])
        assert k.group(1) in VECS and ('post' not in a or a.endswith(' 8)'))
        return f'.{m} .{k.group(1)} {a}'
    if m == 'movi' and o[1] == '#0':
        return f'.movi0 {vec(n, o[0], "2d")}'
    if m in ('add', 'sub') and o[0][0] == 'x':
        if o[2][0] == '#':
            k = imm(n, o[2])
            return f'.addI {reg(n, o[0])} {reg(n, o[1])} ' + (str(k) if m == 'add' else f'(-{k})')
        if m == 'add':
            return f'.addX {reg(n, o[0])} {reg(n, o[1])} {reg(n, o[2])}'
    if m == 'subs' or m == 'add' and o[0][0] == 'w':
        return f'.{m}W {reg(n, o[0], "w")} {reg(n, o[1], "w")} {imm(n, o[2])}'
    if m == 'mov':
        a, b = o
        if lane(n, a) and lane(n, b):
            return f'.insV {lane(n, a)} {lane(n, b)}'
        if lane(n, a):
            return f'.insX {lane(n, a)} {reg(n, b)}'
        if lane(n, b):
            return f'.umov {reg(n, a)} {lane(n, b)}'
        if b[0] == '#':
            return f'.movI {reg(n, a)} {imm(n, b)}'
    if m == 'adr':
        if o[1] not in syms:
            die(n, f'symbol {o[1]}')
        return f'.adr {reg(n, o[0])} {o[1]}'
    if m == 'ror':
        return f'.ror {reg(n, o[0])} {reg(n, o[1])} {imm(n, o[2])}'
    if m == 'eor' and o[0][0] == 'w':
        return f'.eorW {reg(n, o[0], "w")} {reg(n, o[1], "w")} {reg(n, o[2], "w")}'
    if m in ('eor', 'bic'):
        if m == 'eor' and o[0].endswith('.8b'):
            return f'.eor8 {vec(n, o[0], "8b")} {vec(n, o[1], "8b")} {vec(n, o[2], "8b")}'
        return f'.{m} {vec(n, o[0], "16b")} {vec(n, o[1], "16b")} {vec(n, o[2], "16b")}'
    if m == 'ext' and imm(n, o[3]) == 8:
        return f'.ext8 {vec(n, o[0], "16b")} {vec(n, o[1], "16b")} {vec(n, o[2], "16b")}'
    if m in ('trn1', 'trn2'):
        return f'.{m} {vec(n, o[0], "2d")} {vec(n, o[1], "2d")} {vec(n, o[2], "2d")}'
    if m in ('shl', 'sri'):
        return f'.{m} {vec(n, o[0], "2d")} {vec(n, o[1], "2d")} {imm(n, o[2])}'
    if m in ('ldrb', 'strb'):
        return f'.{m} {reg(n, o[0], "w")} {adr(n, o[1:])}'
    die(n, f'instruction {m} {o}')


def main():
    repo, out = sys.argv[1:]
    lines, macros, cur = [], {}, None
    for n, s in enumerate(open(f'{repo}/{SRC}').read().split('\n'), 1):
        s = s.split('//')[0].strip()
        if not s:
            continue
        w = s.split()
        if w[0] == '.macro':
            cur = (w[1], [x.strip() for x in s.split(None, 2)[2].split(',')] if len(w) > 2 else [], [])
        elif w[0] == '.endm':
            macros[cur[0]] = cur[1:]
            cur = None
        elif cur:
            cur[2].append((n, s))
        else:
            lines.append((n, s))
    funs = {s.split()[1] for n, s in lines if s.startswith('.global')}
    lines = list(expand(lines, macros))
    # constants
    syms, quads, first, last, code = {}, [], None, None, []
    pending = []
    for n, s in lines:
        m = re.fullmatch(r'(\w+):', s)
        if m:
            pending.append((n, m.group(1)))
            continue
        w = s.split(None, 1)
        if w[0] == '.quad':
            for k, l in pending:
                syms[l] = (k, 8 * len(quads))
            pending = []
            quads.append(value(n, w[1]))
            first = first or n
            last = n
        elif w[0] in ('.align', '.global'):
            for k, l in pending:
                syms[l] = (k, 8 * len(quads))
            pending = []
        else:
            code += [(k, l, None) for k, l in pending]
            pending = []
            code.append((n, None, s))
    blocks, use = [], False
    for n, l, s in code:
        if l:
            if l in funs:
                use = l in USED
            if use:
                if blocks and not re.match(r'\.(ret$|b )', blocks[-1][3][-1] if blocks[-1][3] else ''):
                    blocks[-1][3].append(f'.b .{l}')
                blocks.append([l, n, n, []])
            continue
        if not use:
            continue
        w = s.split(None, 1)
        o = split_ops(w[1]) if len(w) > 1 else []
        B = {'b': 'b', 'b.cc': 'bcc', 'bne': 'bne'}
        if w[0] == 'ret':
            x = '.ret'
        elif w[0] in B:
            x = f'.{B[w[0]]} .{o[0]}'
        else:
            x = f'.op ({op(n, w[0], o, syms)})'
        blocks[-1][3].append(x)
        blocks[-1][2] = n

    W = [f'''/-
Generated by tools/neon2lean.py from {SRC}. Do not edit.

The functions of that file which the library uses, with the macros LoadState, StoreState, RhoPi, ROTL64 and KeccakRound
({SRC}:38-234) expanded.  Where the code runs on into the next label there is a jump.
-/
import Verif.Model.A64

namespace Faest.GenN
open Faest.A64

/-- The labels. -/
inductive Lbl where''']
    for l, _, _, _ in blocks:
        W.append(f'  | {l}')
    W.append('')
    for k, (n, v) in syms.items():
        W.append(f'/-- {SRC}:{n} `{k}`, its place in the table of constants. -/')
        W.append(f'def {k} : Int := {v}')
    W.append('')
    W.append(f'/-- {SRC}:{first}-{last}. -/')
    W.append('def rodata : List (BitVec 64) := [')
    for i in range(0, len(quads), 4):
        W.append('  ' + ', '.join(f'0x{q:016x}' for q in quads[i:i + 4]) + (',' if i + 4 < len(quads) else ']'))
    for l, a, b, c in blocks:
        W.append('')
        W.append(f'/-- {SRC}:{a}-{b} `{l}`. -/')
        W.append(f'def c_{l} : List (Ins Lbl) := [')
        for i, x in enumerate(c):
            W.append('  ' + x + (',' if i + 1 < len(c) else ']'))
    W.append('')
    W.append('/-- The code from a label to the next one. -/')
    W.append('def code : Lbl → List (Ins Lbl)')
    for l, _, _, _ in blocks:
        W.append(f'  | .{l} => c_{l}')
    W.append('')
    W.append('/-- The program. -/')
    W.append('def prog : Prog Lbl := ⟨code, rodata⟩')
    W.append('')
    W.append('end Faest.GenN')
    open(out, 'w').write('\n'.join(W) + '\n')


main()
