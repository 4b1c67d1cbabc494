#!/usr/bin/env python3
"""Transcribes the AVX2 assembly of /repo/mlkem/native/x86_64 (ntt.S, intt.S, fq.S, fq.inc, shuffle.inc, shuffle.S,
basemul.S) line by line, the general-purpose instructions included, into /verif/lean/Verif/Model/X86Gp.lean (between
the markers).  Macros become Lean functions returning instruction lists.  Memory operands keep their base register and
their displacement in bytes, as written."""
import re
D = '/repo/mlkem/native/x86_64/'
OUT = '/verif/lean/Verif/Model/X86Gp.lean'
REGS3 = {'vpmullw','vpmulhw','vpaddw','vpsubw','vpand','vpor','vpunpcklqdq','vpunpckhqdq','vpshufb'}
IMM2 = {'vpsraw','vpsllw','vpsrlw','vpsrlq','vpslld','vpsrld'}
IMM3 = {'vperm2i128','vpblendd','vpblendw'}
GPR = dict(rax=0, rcx=1, rdx=2, rbx=3, rsp=4, rbp=5, rsi=6, rdi=7, **{f'r{i}': i for i in range(8, 16)})

def split_ops(s):
    out, depth, cur = [], 0, ''
    for ch in s:
        if ch == '(': depth += 1
        if ch == ')': depth -= 1
        if ch == ',' and depth == 0: out.append(cur.strip()); cur = ''
        else: cur += ch
    out.append(cur.strip())
    return out

def clean(e): return e.replace('\\', '').replace(' ', '')
def reg(o):
    m = re.fullmatch(r'%ymm\\?(\w+)', o)
    return m.group(1) if m else None
def gpr(o): return GPR[o[1:]]
def imm(o):
    assert o.startswith('$')
    return o[1:]
def mem(o):
    m = re.fullmatch(r'(.*)\(%(\w+)\)', o)
    return f'{GPR[m.group(2)]} ({clean(m.group(1)) or "0"})'

def ins(line):
    op, rest = (line.split(None, 1) + [''])[:2]
    o = split_ops(rest)
    if op in REGS3:
        if reg(o[0]) is None:
            assert op == 'vpsubw'
            return f'.mem {mem(o[0])} (.vpsubw {reg(o[1])} {reg(o[2])})'
        return f'.vec (.{op} {reg(o[0])} {reg(o[1])} {reg(o[2])})'
    if op in IMM2: return f'.vec (.{op} {imm(o[0])} {reg(o[1])} {reg(o[2])})'
    if op in IMM3: return f'.vec (.{op} {imm(o[0])} {reg(o[1])} {reg(o[2])} {reg(o[3])})'
    if op == 'vmovsldup': return f'.vec (.{op} {reg(o[0])} {reg(o[1])})'
    if op in ('vmovdqa', 'vmovdqu'):
        if reg(o[0]) is None: return f'.mem {mem(o[0])} (.{op}_ld {reg(o[1])})'
        return f'.mem {mem(o[1])} (.{op}_st {reg(o[0])})'
    if op == 'vpbroadcastq': return f'.mem {mem(o[0])} (.{op} {reg(o[1])})'
    if op == 'vpermq': return f'.mem {mem(o[1])} (.{op} {imm(o[0])} {reg(o[2])})'
    if op == 'vpermd': return f'.mem {mem(o[0])} (.{op} {reg(o[1])} {reg(o[2])})'
    if op == 'mov': return f'.mov {gpr(o[0])} {gpr(o[1])}'
    if op == 'add': return f'.add ({imm(o[0])}) {gpr(o[1])}'
    if op == 'sub': return f'.sub ({imm(o[0])}) {gpr(o[1])}'
    if op == 'and': return f'.and {int(imm(o[0]), 0) % 2**64} {gpr(o[1])}'
    if op == 'lea': return f'.lea {mem(o[0])} {gpr(o[1])}'
    return None

def lines_of(fn):
    txt = open(D + fn).read()
    txt = re.sub(r'/\*.*?\*/', lambda m: '\n' * m.group(0).count('\n'), txt, flags=re.S)
    return [re.sub(r'//.*|(?<!\S)#.*', '', l).strip() if not re.match(r'\s*#(if|end|inc|def)', l) else '' for l in txt.split('\n')]

def body(ls, lo, hi, macros, callees=()):
    """1-based inclusive line range -> list expression"""
    parts, cur = [], []
    g = bool(callees)
    wrap = (lambda e: f'plain ({e})') if g else (lambda e: e)
    def flush():
        nonlocal cur
        if cur: parts.append(wrap('[' + ',\n    '.join(cur) + ']')); cur = []
    for n in range(lo, hi + 1):
        l = ls[n - 1]
        if not l: continue
        op = l.split()[0]
        if op in macros:
            flush(); args = l.split(None, 1)[1] if len(l.split()) > 1 else ''
            parts.append(wrap(' '.join([op] + [a.replace('\\', '').strip() for a in args.split(',') if a.strip()])))
            continue
        if op == 'call':
            flush(); f = l.split()[1]; assert f in callees
            r = next(k for k in range(n + 1, hi + 2) if ls[k - 1])
            parts.append(f'[.call {f} {r}]')
            continue
        i = ins(l)
        assert i, (n, l)
        cur.append(i)
    flush()
    return ' ++\n    '.join(parts)

def macro(fn, name, macros, skip=None, doc=''):
    ls = lines_of(fn)
    k = next(i for i, l in enumerate(ls) if re.match(r'\.macro\s+' + name + r'\b', l)) + 1
    e = next(i for i in range(k, len(ls)) if ls[i] == '.endm') + 1
    ps = ls[k - 1].split(None, 2)[2] if len(ls[k - 1].split()) > 2 else ''
    sig = ''
    for p in ps.replace(' ', '').split(','):
        if not p: continue
        if '=' in p: a, d = p.split('='); sig += f' ({a} : Nat := {d})'
        else: sig += f' ({p} : Nat)'
    for n in skip or []: ls[n - 1] = ''
    b = body(ls, k + 1, e - 1, macros)
    return f'/-- {fn} {k}-{e}: macro `{name}`{doc}. -/\ndef {name}{sig} : List I :=\n    {b}\n'

def block(fn, label, leanname, macros, callees=(), fun=True, doc=''):
    ls = lines_of(fn)
    k = next(i for i, l in enumerate(ls) if l.startswith(label + ':')) + 1
    e = next(i for i in range(k, len(ls)) if ls[i] == 'ret') + 1
    b = body(ls, k + 1, e - 1, macros, callees)
    if fun and not callees: b = 'plain (' + b + ')'
    return f'/-- {fn} {k}-{e}: `{label}`, up to its `ret`{doc}. -/\ndef {leanname} : List {"G" if fun else "I"} :=\n    {b}\n'

S = []
mac = set()
for m in ['shuffle8', 'shuffle4', 'shuffle2', 'shuffle1']:
    S.append(macro('shuffle.inc', m, mac)); mac.add(m)
fl = lines_of('fq.inc')
k = next(i for i, l in enumerate(fl) if '.if' in l) + 1
# .if \rs ... .else ... .endif : only rs = 0 is used
S.append(macro('fq.inc', 'red16', mac, skip=[k, k + 1, k + 2, k + 4], doc=' (every use has `rs` = 0: the `.else` branch)').replace(' (rs : Nat := 0)', '')); mac.add('red16')
for m in ['csubq', 'caddq', 'fqmulprecomp']:
    S.append(macro('fq.inc', m, mac)); mac.add(m)
mm = set(mac)
for m in ['mul', 'reduce', 'update', 'level0', 'levels1t6']:
    S.append(macro('ntt.S', m, mm)); mm.add(m)
S.append(block('ntt.S', 'MLKEM_NAMESPACE(ntt_avx2)', 'ntt_avx2', mm))
mm = set(mac)
for m in ['butterfly', 'intt_levels0t5', 'intt_level6']:
    S.append(macro('intt.S', m, mm)); mm.add(m)
S.append(block('intt.S', 'MLKEM_NAMESPACE(invntt_avx2)', 'invntt_avx2', mm))
for fn, f, g in [('fq.S', 'reduce128_avx2', 'reduce_avx2'), ('fq.S', 'tomont128_avx2', 'tomont_avx2'), ('shuffle.S', 'nttunpack128_avx2', 'nttunpack_avx2'),
                 ('shuffle.S', 'ntttobytes128_avx', 'ntttobytes_avx2'), ('shuffle.S', 'nttfrombytes128_avx', 'nttfrombytes_avx2')]:
    S.append(block(fn, f, f, mac, fun=False))
    S.append(block(fn, f'MLKEM_NAMESPACE({g})', g, mac, [f]))
S.append(block('shuffle.S', 'MLKEM_NAMESPACE(nttpack_avx2)', 'nttpack_avx2', mac, doc=' (not called by the library)'))
S.append(macro('basemul.S', 'schoolbook', mac))
S.append(block('basemul.S', 'MLKEM_NAMESPACE(basemul_avx2)', 'basemul_avx2', mac | {'schoolbook'}))
t = open(OUT).read()
a = t.index('-- generated programs: begin\n') + len('-- generated programs: begin\n')
b = t.index('-- generated programs: end')
open(OUT, 'w').write(t[:a] + '\n'.join(S) + t[b:])
