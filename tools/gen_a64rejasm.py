#!/usr/bin/env python3
"""Generate the program of lean/Verif/Model/A64RejAsm.lean from /repo/mlkem/native/aarch64/rej_uniform_asm_clean.S (the text between the markers)."""
import re
SRC = '/repo/mlkem/native/aarch64/rej_uniform_asm_clean.S'
DST = '/verif/lean/Verif/Model/A64RejAsm.lean'
CONST = {'MLKEM_Q': 3329, 'MLKEM_N': 256, 'STACK_SIZE': 2 * 256 + 64, 'STACK_OFFSET_TMP_OUTPUT': 0}
lines = open(SRC).read().split('\n')
req = {}
for l in lines:
    m = re.match(r'\s*(\w+)\s+\.req\s+(\w+)', l)
    if m: req[m.group(1)] = m.group(2)
def reg(t):
    """kind and number of a register name"""
    t = t.strip().split('.')[0]
    while t in req: t = req[t]
    if t == 'sp': return ('x', 31)
    m = re.fullmatch(r'([xwvqs])(\d+)', t)
    return (m.group(1), int(m.group(2)))
def imm(t):
    t = t.strip().lstrip('#')
    return CONST[t] if t in CONST else int(t, 0)
def num(i): return f'({i})' if i < 0 else str(i)
start = next(i for i, l in enumerate(lines) if l.startswith('_MLKEM_NAMESPACE(rej_uniform_asm_clean)'))
macros = {'push_stack': 'sub sp, sp, #STACK_SIZE', 'pop_stack': 'add sp, sp, #STACK_SIZE'}
blocks, labels, cur, first = [], {}, [], None
def close(fin, n):
    global cur, first
    blocks.append((cur, fin, first or n, n)); cur, first = [], None
def split(a): return [x.strip() for x in re.findall(r'(?:\{[^}]*\}|\[[^\]]*\]|[^,\[\{])+', a)]
for n, l in enumerate(lines[start + 1:], start + 2):
    l = l.split('//')[0].strip()
    l = macros.get(l, l)
    if not l or l.startswith('#') or l.startswith('/*'): continue
    if l.endswith(':'):
        if cur: close('.next', n - 1)
        labels[l[:-1]] = len(blocks); continue
    if first is None: first = n
    op, _, a = l.partition(' ')
    a = a.strip()
    if l.startswith('ASM_LOAD'):
        r, t = re.match(r'ASM_LOAD\((\w+), (\w+)\)', l).groups()
        cur.append(f".adr {reg(r)[1]} .{ {'bit_table_data': 'bits', 'table_data': 'tab'}[t]}"); continue
    if op == 'ret': close('.ret', n); continue
    if op.startswith('b.'): close(('.bc .' + op[2:], a), n); continue
    if op == 'b': close(('.b', a), n); continue
    p = split(a)
    if op in ('ldr', 'str'):
        r = reg(p[0])[1]; mem = p[1]
        b = [x.strip() for x in mem.strip('[]').split(',')]
        if len(p) == 3: cur.append(f".{op}_post {r} {reg(b[0])[1]} {num(imm(p[2]))}")
        elif len(b) == 1: cur.append(f".{op} {r} {reg(b[0])[1]} 0")
        elif len(b) == 2: cur.append(f".{op} {r} {reg(b[0])[1]} {num(imm(b[1]))}")
        else:
            assert b[2] == 'uxtw #4' and reg(b[1])[0] == 'w'
            cur.append(f".{op}_x {r} {reg(b[0])[1]} {reg(b[1])[1]}")
    elif op == 'ld3':
        rs = [x.strip() for x in p[0].strip('{}').split(',')]
        d = [reg(x)[1] for x in rs]
        w = {'16b': 16, '8b': 8}[rs[0].split('.')[1]]
        cur.append(f".ld3 {d[0]} {d[1]} {d[2]} {reg(p[1].strip('[]'))[1]} {w} {imm(p[2])}")
    elif op == 'mov' or op == 'movz':
        k, d = reg(p[0])
        if p[1].startswith('#'): cur.append(f'.mov_wi {d} {imm(p[1])}'); assert k == 'w'
        else: cur.append(f'.mov_{k} {d} {reg(p[1])[1]}')
    elif op == 'dup': cur.append(f'.dup {reg(p[0])[1]} {reg(p[1])[1]}')
    elif op == 'cmp':
        assert reg(p[0])[0] == 'w'
        cur.append(f'.cmp_i {reg(p[0])[1]} {imm(p[1])}' if p[1].startswith('#') else f'.cmp {reg(p[0])[1]} {reg(p[1])[1]}')
    elif op in ('add', 'sub'):
        k, d = reg(p[0])
        if p[2].startswith('#'): cur.append(f'.{op}_{k}i {d} {reg(p[1])[1]} {imm(p[2])}')
        elif len(p) == 4: assert p[3] == 'uxtw #1' and k == 'x'; cur.append(f'.{op}_uxtw1 {d} {reg(p[1])[1]} {reg(p[2])[1]}')
        else: assert k == 'w'; cur.append(f'.{op}_w {d} {reg(p[1])[1]} {reg(p[2])[1]}')
    elif op == 'csel': assert p[3] == 'lo'; cur.append(f'.csel_lo {reg(p[0])[1]} {reg(p[1])[1]} {reg(p[2])[1]}')
    elif op in ('zip1', 'zip2'): cur.append(f".{op}{p[0].split('.')[1][-1]} {reg(p[0])[1]} {reg(p[1])[1]} {reg(p[2])[1]}")
    elif op == 'bic': cur.append(f".bic {reg(p[0])[1]} {imm(p[1])} {int(p[2].replace('lsl', ''))}")
    elif op == 'ushr': cur.append(f'.ushr {reg(p[0])[1]} {reg(p[1])[1]} {imm(p[2])}')
    elif op in ('cmhi', 'and'): cur.append(f'.{op} {reg(p[0])[1]} {reg(p[1])[1]} {reg(p[2])[1]}')
    elif op in ('uaddlv', 'cnt', 'fmov'): cur.append(f'.{op} {reg(p[0])[1]} {reg(p[1])[1]}')
    elif op == 'tbl': cur.append(f".tbl {reg(p[0])[1]} {reg(p[1].strip('{}'))[1]} {reg(p[2])[1]}")
    else: raise SystemExit('unknown ' + l)
assert not cur
out = []
names = ['prologue', 'loop48', 'body48', 'loop48_end', 'check24', 'body24', 'memory_copy', 'final_copy', 'end_', 'return_']
assert len(names) == len(blocks), [b[1] for b in blocks]
import textwrap
for nm, (ins, fin, a, b) in zip(names, blocks):
    if isinstance(fin, tuple): fin = f'{fin[0]} {labels[fin[1]]}'
    body = '\n    '.join(textwrap.wrap(', '.join(i.replace(' ', '~') for i in ins), 170, break_long_words=False, break_on_hyphens=False)).replace('~', ' ')
    out.append(f'/-- rej_uniform_asm_clean.S {a}-{b}. -/\ndef {nm} : Block := ⟨[\n    {body}],\n  {fin}⟩')
out.append(f'/-- `rej_uniform_asm_clean`, rej_uniform_asm_clean.S {blocks[0][2]}-{blocks[-1][3]}.  Labels: ' + ', '.join(f'`{k}` is block {v}' for k, v in labels.items()) +
           '. -/\ndef prog : List Block := [' + ', '.join(names) + ']')
s = open(DST).read()
A, B = '-- generated program: begin\n', '-- generated program: end\n'
s = s[:s.index(A) + len(A)] + '\n'.join(out) + '\n' + s[s.index(B):]
open(DST, 'w').write(s)
