#!/usr/bin/env python3
"""Transcribes the AVX2 assembly of /repo/mlkem/native/x86_64 (ntt.S, intt.S, fq.S, fq.inc, shuffle.inc,
shuffle.S, basemul.S, consts.c, x86_64_zetas.i) line by line into /verif/lean/Verif/Model/X86Asm.lean.
Macros become Lean functions returning instruction lists; `call`ed blocks become functions of the
current offsets of the pointers."""
import re
D = '/repo/mlkem/native/x86_64/'
OUT = '/verif/lean/Verif/Model/X86Asm.lean'
REGS3 = {'vpmullw','vpmulhw','vpaddw','vpsubw','vpand','vpor','vpunpcklqdq','vpunpckhqdq','vpshufb'}
IMM2 = {'vpsraw','vpsllw','vpsrlw','vpsrlq','vpslld','vpsrld'}
IMM3 = {'vperm2i128','vpblendd','vpblendw'}

def split_ops(s):
    out, depth, cur = [], 0, ''
    for ch in s:
        if ch == '(' : depth += 1
        if ch == ')' : depth -= 1
        if ch == ',' and depth == 0:
            out.append(cur.strip()); cur = ''
        else: cur += ch
    out.append(cur.strip())
    return out

def clean(e):
    return e.replace('\\', '').replace(' ', '')

def reg(o):
    m = re.fullmatch(r'%ymm\\?(\w+)', o)
    return m.group(1) if m else None

def mem(o, base):
    """memory operand -> (pointer, offset in 16-bit elements or bytes)"""
    m = re.fullmatch(r'(.*)\(%(\w+)\)', o)
    disp, r = m.group(1).strip(), m.group(2)
    if disp == '': off = '0'
    elif disp.endswith('*2'):
        off = clean(disp[:-2])
    else:
        off = str(int(disp) // 2)
    return r, off

def imm(o):
    assert o.startswith('$')
    return str(int(o[1:], 0))

def ptr(r, off, base):
    b = base.get(r, '')
    if r == 'r9': return '.rcx', f'(r9 + {off})'
    if b: return '.' + r, f'({b} + {off})'
    return '.' + r, f'({off})'

def ins(line, base):
    op, rest = (line.split(None, 1) + [''])[:2]
    o = split_ops(rest)
    if op in REGS3:
        if reg(o[0]) is None:
            p, f = ptr(*mem(o[0], base), base)
            return f'.{op}_m {p} {f} {reg(o[1])} {reg(o[2])}'
        return f'.{op} {reg(o[0])} {reg(o[1])} {reg(o[2])}'
    if op in IMM2: return f'.{op} {imm(o[0])} {reg(o[1])} {reg(o[2])}'
    if op in IMM3: return f'.{op} {imm(o[0])} {reg(o[1])} {reg(o[2])} {reg(o[3])}'
    if op == 'vmovsldup': return f'.{op} {reg(o[0])} {reg(o[1])}'
    if op == 'vmovdqa':
        if reg(o[0]) is None:
            p, f = ptr(*mem(o[0], base), base); return f'.vmovdqa_ld {p} {f} {reg(o[1])}'
        p, f = ptr(*mem(o[1], base), base); return f'.vmovdqa_st {reg(o[0])} {p} {f}'
    if op == 'vmovdqu':   # byte arrays: offsets in bytes
        if reg(o[0]) is None:
            r, f = mem(o[0], base); return f'.vmovdqu_ld .{r} ({base[r+"b"]} + {2*int(f)}) {reg(o[1])}'
        r, f = mem(o[1], base); return f'.vmovdqu_st {reg(o[0])} .{r} ({base[r+"b"]} + {2*int(f)})'
    if op == 'vpbroadcastq':
        p, f = ptr(*mem(o[0], base), base); return f'.vpbroadcastq {p} {f} {reg(o[1])}'
    if op == 'vpermq':
        p, f = ptr(*mem(o[1], base), base); return f'.vpermq {imm(o[0])} {p} {f} {reg(o[2])}'
    if op == 'vpermd':
        p, f = ptr(*mem(o[0], base), base); return f'.vpermd {p} {f} {reg(o[1])} {reg(o[2])}'
    return None

def lines_of(fn):
    L = open(D + fn).read().split('\n')
    # strip comments, keeping line numbers
    txt = '\n'.join(L)
    txt = re.sub(r'/\*.*?\*/', lambda m: '\n' * m.group(0).count('\n'), txt, flags=re.S)
    return [re.sub(r'//.*|(?<!\S)#.*', '', l).strip() if not re.match(r'\s*#(if|end|inc|def)', l) else '' for l in txt.split('\n')]

def body(ls, lo, hi, macros, base, calls={}):
    """1-based inclusive line range -> list expression"""
    parts, cur = [], []
    def flush():
        nonlocal cur
        if cur: parts.append('[' + ',\n    '.join(cur) + ']'); cur = []
    for n in range(lo, hi + 1):
        l = ls[n - 1]
        if not l or l == 'ret' or l.startswith('.if') : continue
        op = l.split()[0]
        if op in macros:
            flush(); args = l.split(None, 1)[1] if len(l.split()) > 1 else ''
            parts.append(' '.join([op] + [a.replace('\\', '').strip() for a in args.split(',') if a.strip()]))
            continue
        i = ins(l, base)
        assert i, (n, l)
        cur.append(i)
    flush()
    return ' ++\n    '.join(parts)

def macro(fn, name, macros, base={}, skip=None, doc=''):
    ls = lines_of(fn)
    k = next(i for i, l in enumerate(ls) if re.match(r'\.macro\s+' + name + r'\b', l)) + 1
    e = next(i for i in range(k, len(ls)) if ls[i] == '.endm') + 1
    ps = ls[k - 1].split(None, 2)[2] if len(ls[k - 1].split()) > 2 else ''
    sig = ''
    for p in ps.replace(' ', '').split(','):
        if not p: continue
        if '=' in p: a, d = p.split('='); sig += f' ({a} : Nat := {d})'
        else: sig += f' ({p} : Nat)'
    if skip:
        ls = list(ls)
        for n in skip: ls[n - 1] = ''
    b = body(ls, k + 1, e - 1, macros, base)
    return f'/-- {fn} {k}-{e}: macro `{name}`{doc}. -/\ndef {name}{sig} : List Ins :=\n    {b}\n'

def block(fn, label, leanname, macros, base={}, sig='', doc=''):
    ls = lines_of(fn)
    k = next(i for i, l in enumerate(ls) if l.startswith(label + ':')) + 1
    e = next(i for i in range(k, len(ls)) if ls[i] == 'ret') + 1
    b = body(ls, k + 1, e - 1, macros, base)
    return f'/-- {fn} {k}-{e}: `{label}`{doc}. -/\ndef {leanname}{sig} : List Ins :=\n    {b}\n'

consts = open(D + 'consts.c').read()
zet = open(D + 'x86_64_zetas.i').read()
zet = re.sub(r'/\*.*?\*/', '', zet, flags=re.S)
zetas = [int(x) for x in zet.replace('\n', ' ').split(',') if x.strip()]
dfn = {m.group(1): int(m.group(2)) for m in re.finditer(r'#define (\w+) (-?\d+)', consts)}
dfn['Q'] = 3329
tab = consts[consts.index('qdata = {{') + 10: consts.index('}};')]
q = []
for l in tab.split('\n'):
    l = l.strip()
    if l.startswith('#include'): q += zetas; continue
    if l.startswith('#'): continue
    for x in l.split(','):
        x = x.strip()
        if x: q.append(dfn[x] if x in dfn else int(x))
assert len(q) == 640, len(q)
hdr = open(D + 'consts.h').read()
offs = re.findall(r'#define (_\w+) (\d+)', hdr)

S = []
S.append(open('/verif/tools/x86asm_head.txt').read())
S.append('/-! ## Constants (consts.h 16-27, consts.c 30-87, x86_64_zetas.i) -/\n')
for a, b in offs: S.append(f'/-- consts.h: offset `{a}` in 16-bit elements.  consts.h {1 + [l.split()[:2] for l in hdr.split(chr(10))].index(["#define", a])}. -/\nabbrev {a} : Nat := {b}')
S.append('/-- consts.c 30-87 with x86_64_zetas.i: the table `qdata`. -/\ndef qdataList : List Int := [')
for i in range(0, 640, 16): S.append('  ' + ', '.join(map(str, q[i:i+16])) + (',' if i < 624 else ']'))
S.append('/-- The object `qdata`.  consts.c 30. -/\ndef qdata : Buf Int := Buf.ofList qdataList\n')
S.append('/-! ## shuffle.inc and fq.inc -/\n')
mac = set()
for m in ['shuffle8', 'shuffle4', 'shuffle2', 'shuffle1']:
    S.append(macro('shuffle.inc', m, mac)); mac.add(m)
fl = lines_of('fq.inc')
k = next(i for i, l in enumerate(fl) if '.if' in l) + 1
# .if \rs ... .else ... .endif : only rs = 0 is used
S.append(macro('fq.inc', 'red16', mac, skip=[k, k + 1, k + 2, k + 4], doc=' (every use has `rs` = 0: the `.else` branch)').replace(' (rs : Nat := 0)', '')); mac.add('red16')
for m in ['csubq', 'caddq', 'fqmulprecomp']:
    S.append(macro('fq.inc', m, mac)); mac.add(m)
S.append('/-! ## ntt.S -/\nnamespace Ntt\n')
mm = set(mac)
for m in ['mul', 'reduce', 'update', 'level0', 'levels1t6']:
    S.append(macro('ntt.S', m, mm)); mm.add(m)
S.append(block('ntt.S', 'MLKEM_NAMESPACE(ntt_avx2)', 'ntt_avx2', mm))
S.append('end Ntt\n/-! ## intt.S -/\nnamespace Intt\n')
mm = set(mac)
for m in ['butterfly', 'intt_levels0t5', 'intt_level6']:
    S.append(macro('intt.S', m, mm)); mm.add(m)
S.append(block('intt.S', 'MLKEM_NAMESPACE(invntt_avx2)', 'invntt_avx2', mm))
S.append('end Intt\n/-! ## fq.S -/\n')
O = ' (o : Nat)'
S.append(block('fq.S', 'reduce128_avx2', 'reduce128_avx2', mac, {'rdi': 'o'}, O, '; `o` is the offset of `rdi`'))
S.append('''/-- fq.S: `reduce_avx2`.  fq.S 64-72. -/
def reduce_avx2 : List Ins := [.vmovdqa_ld .rsi (_16XQ) 0, .vmovdqa_ld .rsi (_16XV) 1] ++ reduce128_avx2 0 ++ reduce128_avx2 128
''')
S.append(block('fq.S', 'tomont128_avx2', 'tomont128_avx2', mac, {'rdi': 'o'}, O, '; `o` is the offset of `rdi`'))
S.append('''/-- fq.S: `tomont_avx2`.  fq.S 107-116. -/
def tomont_avx2 : List Ins :=
    [.vmovdqa_ld .rsi (_16XQ) 0, .vmovdqa_ld .rsi (_16XMONTSQLO) 1, .vmovdqa_ld .rsi (_16XMONTSQHI) 2] ++ tomont128_avx2 0 ++ tomont128_avx2 128
''')
S.append('/-! ## shuffle.S -/\n')
S.append(block('shuffle.S', 'MLKEM_NAMESPACE(nttpack_avx2)', 'nttpack_avx2', mac, {}, '', ' (not called by the library)'))
S.append(block('shuffle.S', 'nttunpack128_avx2', 'nttunpack128_avx2', mac, {'rdi': 'o'}, O, '; `o` is the offset of `rdi`'))
S.append('''/-- shuffle.S 105-110: `nttunpack_avx2`. -/
def nttunpack_avx2 : List Ins := nttunpack128_avx2 0 ++ nttunpack128_avx2 128
''')
S.append(block('shuffle.S', 'ntttobytes128_avx', 'ntttobytes128_avx', mac, {'rsi': 'o', 'rdib': 'p'}, ' (o p : Nat)', '; `o` is the offset of `rsi` in elements, `p` that of `rdi` in bytes'))
S.append('''/-- shuffle.S 172-180: `ntttobytes_avx2`. -/
def ntttobytes_avx2 : List Ins := [.vmovdqa_ld .rdx (_16XQ) 0] ++ ntttobytes128_avx 0 0 ++ ntttobytes128_avx 128 192
''')
S.append(block('shuffle.S', 'nttfrombytes128_avx', 'nttfrombytes128_avx', mac, {'rdi': 'o', 'rsib': 'p'}, ' (o p : Nat)', '; `o` is the offset of `rdi` in elements, `p` that of `rsi` in bytes'))
S.append('''/-- shuffle.S 248-256: `nttfrombytes_avx2`. -/
def nttfrombytes_avx2 : List Ins := [.vmovdqa_ld .rdx (_16XMASK) 0] ++ nttfrombytes128_avx 0 0 ++ nttfrombytes128_avx 128 192
''')
S.append('/-! ## basemul.S -/\n')
S.append(macro('basemul.S', 'schoolbook', mac, {}).replace('def schoolbook (off : Nat)', 'def schoolbook (off r9 : Nat)').replace('macro `schoolbook`', 'macro `schoolbook`; `r9` is the offset of `%r9` from `%rcx` in elements'))
S.append('''/-- basemul.S 120-139: `basemul_avx2`.  The stack slot is a 32-byte object of its own. -/
def basemul_avx2 : List Ins :=
    schoolbook 0 (_ZETAS_EXP+176) ++ schoolbook 1 (_ZETAS_EXP+176+32) ++ schoolbook 2 (_ZETAS_EXP+176+32+192) ++ schoolbook 3 (_ZETAS_EXP+176+32+192+32)
''')
S.append('end Verif.Model.X86\n')
open(OUT, 'w').write('\n'.join(S))
