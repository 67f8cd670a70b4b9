#!/usr/bin/env python3
"""Translate sha3/avx2/KeccakP-1600-AVX2.s to Lean (Verif/Model/Gen/KeccakAsm.lean).

Usage: asm2lean.py REPO OUT

The functions which the library uses are translated instruction by instruction; the others are left out.  Conditional
assembly is resolved with no symbol defined.  An instruction or operand which is not known stops the tool.
"""
import re
import sys

SRC = 'sha3/avx2/KeccakP-1600-AVX2.s'
USED = ['KeccakP1600_Initialize', 'KeccakP1600_AddByte', 'KeccakP1600_AddBytes', 'KeccakP1600_ExtractBytes',
        '__KeccakF1600', 'KeccakP1600_Permute_24rounds', 'KeccakF1600_FastLoop_Absorb']
UNUSED = ['KeccakP1600_OverwriteBytes', 'KeccakP1600_OverwriteWithZeroes', 'KeccakP1600_ExtractAndAddBytes',
          'KeccakP1600_Permute_12rounds', 'KeccakP1600_Permute_Nrounds', 'KeccakP1600_12rounds_FastLoop_Absorb']
R64 = ['rax', 'rbx', 'rcx', 'rdx', 'rsi', 'rdi', 'r8', 'r9', 'r10']
R32 = {'eax': 'rax', 'edx': 'rdx'}
R8 = {'r8b': 'r8', 'sil': 'rsi'}


def die(n, msg):
    sys.exit(f'{SRC}:{n}: {msg}')


def conditional(lines):
    """Resolve .ifdef and .ifndef with no symbol defined."""
    st = []
    for n, s in lines:
        m = re.match(r'\.(ifdef|ifndef|else|endif)\b', s)
        if not m:
            if all(st):
                yield n, s
        elif m.group(1) == 'ifdef':
            st.append(False)
        elif m.group(1) == 'ifndef':
            st.append(True)
        elif m.group(1) == 'else':
            st[-1] = not st[-1]
        else:
            st.pop()


def arith(n, s, env):
    s = s.strip()
    if not re.fullmatch(r'[\w+\-* ]+', s):
        die(n, f'expression {s}')
    s = re.sub(r'\b[A-Za-z_]\w*', lambda m: str(env[m.group(0)]), s)
    return eval(s, {'__builtins__': {}})


def split_ops(s):
    r, d, cur = [], 0, ''
    for ch in s:
        d += (ch == '(') - (ch == ')')
        if ch == ',' and d == 0:
            r.append(cur.strip())
            cur = ''
        else:
            cur += ch
    if cur.strip():
        r.append(cur.strip())
    return r


def main():
    repo, out = sys.argv[1:]
    raw = open(f'{repo}/{SRC}').read().split('\n')
    lines = []
    for n, s in enumerate(raw, 1):
        s = s.split('#')[0].strip()
        if s:
            lines.append((n, s))
    lines = list(conditional(lines))
    # the table of constants begins with rhotates_left
    start = next(i for i, (n, s) in enumerate(lines) if s == 'rhotates_left:')
    data, equ, syms, pos, first = [], {}, {}, 0, None
    begin = start
    while lines[begin - 1][1].startswith('.'):
        begin -= 1
    for n, s in lines[begin:]:
        m = re.fullmatch(r'([\w.]+):', s)
        if m:
            syms[m.group(1)] = pos
            continue
        w = s.split(None, 1)
        if w[0] == '.balign':
            k = int(w[1])
            while pos % k:
                data.append(0)
                pos += 1
        elif w[0] == '.equ':
            a, b = w[1].split(',')
            equ[a.strip()] = arith(n, b, {})
        elif w[0] in ('.quad', '.long'):
            k = 8 if w[0] == '.quad' else 4
            for x in w[1].split(','):
                data += arith(n, x, equ).to_bytes(k, 'little')
                pos += k
            last = n
        elif w[0] in ('.asciz', '.section', '.globl', '.hidden', '.type', '.size', '.text'):
            pass
        else:
            die(n, s)
    while len(data) % 8:
        data.append(0)
    quads = [int.from_bytes(bytes(data[i:i + 8]), 'little') for i in range(0, len(data), 8)]

    def imm(n, s):
        assert s[0] == '$'
        return arith(n, s[1:], {})

    def reg(n, s):
        if s[:1] == '%' and s[1:] in R64:
            return '.' + s[1:]
        die(n, f'register {s}')

    def vec(n, s):
        m = re.fullmatch(r'%ymm(\d+)', s)
        if not m:
            die(n, f'vector register {s}')
        return f'.y{m.group(1)}'

    def xmm(n, s):
        m = re.fullmatch(r'%xmm(\d+)', s)
        if not m:
            die(n, f'vector register {s}')
        return f'.y{m.group(1)}'

    def num(x):
        return str(x) if x >= 0 else f'({x})'

    def is_mem(s):
        return s.endswith(')')

    def adr(n, s):
        m = re.fullmatch(r'([^()]*)\(([^()]*)\)', s)
        if not m:
            die(n, f'address {s}')
        regs = [x.strip() for x in m.group(2).split(',')]
        if regs == ['%rip']:
            sy = re.match(r'\s*([A-Za-z_]\w*)', m.group(1)).group(1)
            d = arith(n, m.group(1), syms) - syms[sy]
            return f'(.rip {sy})' if d == 0 else f'(.rip ({sy} + {d}))'
        d = arith(n, m.group(1), {}) if m.group(1).strip() else 0
        if len(regs) == 1:
            return f'(.base {num(d)} {reg(n, regs[0])})'
        if len(regs) == 2:
            return f'(.baseIdx {num(d)} {reg(n, regs[0])} {reg(n, regs[1])})'
        die(n, f'address {s}')

    def src(n, s):
        if s[0] == '$':
            return f'(.imm {imm(n, s) % 2**64})'
        if is_mem(s):
            return f'(.mem {adr(n, s)})'
        return f'(.reg {reg(n, s)})'

    def sub8(s):
        return s[0] == '%' and s[1:] in R8

    def sub32(s):
        return s[0] == '%' and s[1:] in R32

    def label(n, s):
        s = s.replace('@PLT', '').lstrip('.')
        if s.startswith('__'):
            s = s[2:]
        return '.' + s

    def ins(n, s):
        w = s.split(None, 1)
        m, o = w[0], split_ops(w[1]) if len(w) > 1 else []
        if m == 'ret':
            return '.ret'
        J = {'jmp': 'jmp', 'jz': 'jz', 'jnz': 'jnz', 'jb': 'jc', 'jc': 'jc', 'jnc': 'jnc', 'jae': 'jnc', 'call': 'call'}
        if m in J:
            return f'.{J[m]} {label(n, o[0])}'
        if m in ('push', 'pop'):
            return f'.{m} {reg(n, o[0])}'
        return '.op ' + paren(op(n, m, o))

    def paren(s):
        return f'({s})' if ' ' in s else s

    def op(n, m, o):
        if m in ('mov', 'movq'):
            a, b = o
            if sub8(a) and is_mem(b):
                return f'.movSt1 .{R8[a[1:]]} {adr(n, b)}'
            if is_mem(a) and sub8(b):
                return f'.movLd1 {adr(n, a)} .{R8[b[1:]]}'
            if sub32(b) and a[0] == '$':
                return f'.mov32 {imm(n, a)} .{R32[b[1:]]}'
            if is_mem(b):
                return f'.movSt {src(n, a)} {adr(n, b)}'
            return f'.mov {src(n, a)} {reg(n, b)}'
        if m == 'lea':
            return f'.lea {adr(n, o[0])} {reg(n, o[1])}'
        if m in ('add', 'sub', 'cmp'):
            return f'.{m} {src(n, o[0])} {reg(n, o[1])}'
        if m == 'and':
            if sub32(o[1]):
                return f'.and32 {imm(n, o[0])} .{R32[o[1][1:]]}'
            return f'.and {imm(n, o[0])} {reg(n, o[1])}'
        if m in ('xor', 'xorb') and is_mem(o[1]):
            if sub8(o[0]):
                return f'.xorSt1 .{R8[o[0][1:]]} {adr(n, o[1])}'
            return f'.xorSt {reg(n, o[0])} {adr(n, o[1])}'
        if m == 'cmovae':
            return f'.cmovae {reg(n, o[0])} {reg(n, o[1])}'
        if m in ('inc', 'dec'):
            if sub32(o[0]) and m == 'dec':
                return f'.dec32 .{R32[o[0][1:]]}'
            return f'.{m} {reg(n, o[0])}'
        if m == 'shr':
            return f'.shr {imm(n, o[0])} {reg(n, o[1])}'
        if m == 'vmovdqu':
            if is_mem(o[0]):
                return f'.vmovdqu {adr(n, o[0])} {vec(n, o[1])}'
            return f'.vmovdquSt {vec(n, o[0])} {adr(n, o[1])}'
        if m == 'vmovdqa':
            if o[1].startswith('%xmm'):
                return f'.vmovdqaX {adr(n, o[0])} {xmm(n, o[1])}'
            return f'.vmovdqa {adr(n, o[0])} {vec(n, o[1])}'
        if m == 'vmovq':
            return f'.vmovqSt {xmm(n, o[0])} {adr(n, o[1])}'
        if m == 'vpbroadcastq':
            return f'.vpbroadcastq {adr(n, o[0])} {vec(n, o[1])}'
        if m == 'vpxor':
            a = f'(.mem {adr(n, o[0])})' if is_mem(o[0]) else f'(.reg {vec(n, o[0])})'
            return f'.vpxor {a} {vec(n, o[1])} {vec(n, o[2])}'
        if m in ('vpor', 'vpandn', 'vpaddq', 'vpcmpeqd'):
            return f'.{m} {vec(n, o[0])} {vec(n, o[1])} {vec(n, o[2])}'
        if m in ('vpsllvq', 'vpsrlvq'):
            return f'.{m} {adr(n, o[0])} {vec(n, o[1])} {vec(n, o[2])}'
        if m == 'vpsrldq' and imm(n, o[0]) == 8:
            return f'.vpsrldq8 {vec(n, o[1])} {vec(n, o[2])}'
        if m in ('vpsrlq', 'vpshufd', 'vpermq'):
            return f'.{m} {imm(n, o[0])} {vec(n, o[1])} {vec(n, o[2])}'
        if m == 'vpblendd':
            return f'.{m} {imm(n, o[0])} {vec(n, o[1])} {vec(n, o[2])} {vec(n, o[3])}'
        if m == 'vpgatherdq':
            b = re.fullmatch(r'\(\s*(%\w+)\s*,\s*(%\w+)\s*,\s*1\s*\)', o[1])
            if not b:
                die(n, f'address {o[1]}')
            return f'.{m} {vec(n, o[0])} {reg(n, b.group(1))} {xmm(n, b.group(2))} {vec(n, o[2])}'
        if m == 'vzeroupper':
            return '.vzeroupper'
        die(n, f'instruction {m} {o}')

    blocks, use = [], False
    for n, s in lines[:begin]:
        m = re.fullmatch(r'([\w.]+):', s)
        if m:
            if m.group(1) in USED:
                use = True
            elif m.group(1) in UNUSED:
                use = False
            if use:
                l = label(n, m.group(1))
                if blocks and (not blocks[-1][3] or blocks[-1][3][-1] not in ('.ret',) and not blocks[-1][3][-1].startswith('.jmp')):
                    blocks[-1][3].append(f'.jmp {l}')
                blocks.append([l, n, n, []])
            continue
        if s.startswith('.') or not use:
            continue
        blocks[-1][3].append(ins(n, s))
        blocks[-1][2] = n

    W = []
    W.append(f'''/-
Generated by tools/asm2lean.py from {SRC}. Do not edit.

The functions of that file which the library uses.  Where the code runs on into the next label there is a jump.
-/
import Verif.Model.Asm

namespace Faest.GenX
open Faest.Asm

/-- The labels. -/
inductive Lbl where''')
    for l, _, _, _ in blocks:
        W.append(f'  | {l[1:]}')
    W.append('')
    for k, v in syms.items():
        ln = next(n for n, s in lines if s == k + ':')
        W.append(f'/-- {SRC}:{ln} `{k}`, its place in the table of constants. -/')
        W.append(f'def {k} : Int := {v}')
    W.append('')
    W.append(f'/-- {SRC}:{lines[start][0]}-{last}, as words of 64 bits. -/')
    W.append('def rodata : List (BitVec 64) := [')
    for i in range(0, len(quads), 4):
        W.append('  ' + ', '.join(f'0x{q:016x}' for q in quads[i:i + 4]) + (',' if i + 4 < len(quads) else ']'))
    for l, a, b, c in blocks:
        W.append('')
        W.append(f'/-- {SRC}:{a}-{b} `{l[1:]}`. -/')
        W.append(f'def c_{l[1:]} : List (Ins Lbl) := [')
        for i, x in enumerate(c):
            W.append('  ' + x + (',' if i + 1 < len(c) else ']'))
    W.append('')
    W.append('/-- The code from a label to the next one. -/')
    W.append('def code : Lbl → List (Ins Lbl)')
    for l, _, _, _ in blocks:
        W.append(f'  | {l} => c_{l[1:]}')
    W.append('')
    W.append('/-- The program. -/')
    W.append('def prog : Prog Lbl := ⟨code, rodata⟩')
    W.append('')
    W.append('end Faest.GenX')
    open(out, 'w').write('\n'.join(W) + '\n')


main()
