#!/usr/bin/env python3
"""Transcribe the AArch64 arithmetic assembly of /repo/mlkem/native/aarch64 into Lean.

Expands the assembler macros, register aliases, #if MLKEM_K blocks and constant expressions of the .S files and
writes one list of blocks per function.  Usage: gen_a64.py > /verif/lean/Verif/Model/A64Asm.lean
"""
import re, sys, os
R = '/repo/mlkem/native/aarch64/'
HEAD = os.path.join(os.path.dirname(os.path.abspath(__file__)), 'a64asm_head.txt')

def ev(s):
    s = s.strip().replace('MLKEM_N', '256').replace('/', '//')
    assert re.fullmatch(r'[-+*/() 0-9xa-fA-F]+', s), s
    return eval(s)

def parse(fn, K):
    """-> (functions: name -> list of (line, label|None, text)), tables: label -> ints with line)"""
    lines = open(R + fn).read().split('\n')
    macros, aliases, funcs, tables = {}, {}, {}, {}
    cond = []          # stack of bools
    cur = None         # current macro
    curfn = None
    curtab = None
    incomment = False
    def expand(text, ln, depth=0):
        nonlocal curfn, curtab
        text = text.split('//')[0].strip()
        if not text: return
        m = re.match(r'(_?)MLKEM_NAMESPACE\((\w+)\):$', text)
        if m:
            if not m.group(1):
                curfn = m.group(2); funcs[curfn] = []; curtab = None
            return
        m = re.match(r'(\w+):(.*)$', text)
        if m:
            lab, rest = m.group(1), m.group(2).strip()
            if curfn is None or rest.startswith('.short') or lab.endswith('_addr'):
                curtab = lab; tables[lab] = []
            else:
                funcs[curfn].append((ln, lab, None))
            if rest: expand(rest, ln, depth)
            return
        w = text.split(None, 1)
        op, rest = w[0], (w[1] if len(w) > 1 else '')
        if op == '.short':
            tables[curtab].append((ln, ev(rest))); return
        m = re.match(r'(\w+)\s+\.req\s+(\w+)$', text)
        if m: aliases[m.group(1)] = m.group(2); return
        if op == '.unreq': aliases.pop(rest.strip(), None); return
        if op in ('.p2align', '.text', '.global'): return
        if op in macros:
            params, body = macros[op]
            args = [a.strip() for a in rest.split(',')] if rest else []
            assert len(args) == len(params), (fn, ln, text, params)
            for b in body:
                # parameters: \name followed by optional \()
                for p, a in sorted(zip(params, args), key=lambda x: -len(x[0])):
                    b = b.replace('\\' + p + '\\()', a).replace('\\' + p, a)
                b = b.replace('\\()', '')
                expand(b, ln, depth + 1)
            return
        assert curfn is not None, (fn, ln, text)
        # registers
        def sub(m):
            return aliases.get(m.group(0), m.group(0))
        if text.startswith('ASM_LOAD'):
            op, rest = 'ASM_LOAD', text[len('ASM_LOAD'):].strip()
        mnem = op
        rest2 = re.sub(r'[A-Za-z_]\w*', sub, rest)
        # aliases followed by arrangement, e.g. data0.8h
        rest2 = re.sub(r'\b([A-Za-z_]\w*)\.', lambda m: aliases.get(m.group(1), m.group(1)) + '.', rest2)
        funcs[curfn].append((ln, None, mnem + ' ' + rest2))
    for ln, l in enumerate(lines, 1):
        s = l.strip()
        if incomment:
            if '*/' in s: incomment = False
            continue
        if s.startswith('/*'):
            if '*/' not in s: incomment = True
            continue
        if s.startswith('#'):
            m = re.match(r'#if MLKEM_K == (\d)', s)
            if m: cond.append(int(m.group(1)) == K)
            elif s.startswith('#if'): cond.append(True)
            elif s.startswith('#endif'): cond.pop()
            elif s.startswith('#include'): pass
            else: raise Exception(s)
            continue
        if not all(cond): continue
        if s.startswith('.macro'):
            w = s.split(None, 2)
            cur = w[1]; macros[cur] = ([p.strip() for p in w[2].split(',')] if len(w) > 2 else [], [])
            continue
        if s == '.endm': cur = None; continue
        if cur: macros[cur][1].append(s); continue
        expand(s, ln)
    return funcs, tables

def reg(s):
    s = s.strip()
    m = re.fullmatch(r'[xwvqd](\d+)(\.\w+)?', s, re.I)
    if m: return int(m.group(1))
    if s == 'sp': return 31
    raise Exception(s)

def ops(rest):
    """split operands at top-level commas"""
    out, d, c = [], 0, ''
    for ch in rest:
        if ch in '[{(': d += 1
        if ch in ']})': d -= 1
        if ch == ',' and d == 0: out.append(c.strip()); c = ''
        else: c += ch
    if c.strip(): out.append(c.strip())
    return out

def imm(s):
    s = s.strip(); assert s[0] == '#', s
    return ev(s[1:])

def addr(o, rest):
    """[x, #off] or [x], #inc -> (reg, off, inc)"""
    m = re.fullmatch(r'\[([^,\]]+)(,\s*(#.*))?\]', o)
    assert m, o
    off = imm(m.group(3)) if m.group(3) else 0
    inc = imm(rest[0]) if rest else 0
    assert not (off and inc)
    return reg(m.group(1)), off, inc

def I(n): return str(n) if n >= 0 else '(%d)' % n

def tr(fn, text):
    op, rest = text.split(None, 1) if ' ' in text.strip() else (text.strip(), '')
    o = ops(rest)
    def arr(i): return o[i].split('.', 1)[1].lower() if '.' in o[i] else None
    op = op.lower()
    if op in ('ldr', 'str') and o[0][0] in 'qQ':
        n, off, inc = addr(o[1], o[2:])
        if len(o) > 2: return '.%s_post %d %d %s' % (op, reg(o[0]), n, I(inc))
        return '.%s %d %d %s' % (op, reg(o[0]), n, I(off))
    if op in ('ld1', 'ld1r', 'ld2', 'st2', 'st4', 'st3'):
        rs = [x.strip() for x in o[0].strip('{}').split(',')]
        ar = {x.split('.')[1].lower() for x in rs}; assert len(ar) == 1
        ar = ar.pop()
        n, off, inc = addr(o[1], o[2:]); assert off == 0
        want = {'ld1': '8h', 'ld1r': '8h', 'ld2': '8h', 'st2': '8h', 'st4': '4s', 'st3': '8b'}[op]
        assert ar == want, text
        return '.%s %s %d %s' % (op, ' '.join(str(reg(x)) for x in rs), n, I(inc))
    if op in ('stp', 'ldp'):
        assert o[0][0] == 'd' and o[1][0] == 'd'
        n, off, inc = addr(o[2], o[3:]); assert inc == 0
        return '.%s_d %d %d %d %s' % (op, reg(o[0]), reg(o[1]), n, I(off))
    if op in ('ldrsh', 'ldrh'):
        n, off, inc = addr(o[1], o[2:]); assert inc == 0
        return '.%s %d %d %s' % (op, reg(o[0]), n, I(off))
    if op in ('add', 'sub', 'subs') and o[0][0] in 'xs':
        return '.%s_i %d %d %s' % (op, reg(o[0]), reg(o[1]), I(imm(o[2])))
    if op == 'mov':
        if o[1][0] == '#': return '.mov_i %d %s' % (reg(o[0]), I(imm(o[1])))
        assert o[0][0] == 'x'
        return '.mov_r %d %d' % (reg(o[0]), reg(o[1]))
    if op.startswith('asm_load'):
        raise Exception('asm_load')
    if op == 'dup':
        assert arr(0) == '8h' and o[1][0] == 'w'
        return '.dup %d %d' % (reg(o[0]), reg(o[1]))
    if op in ('add', 'sub', 'mul', 'mls', 'sqrdmulh', 'sqdmulh'):
        m = re.fullmatch(r'(v\d+)\.h\[(\d+)\]', o[2], re.I)
        assert arr(0) == '8h' and arr(1) == '8h', text
        if m: return '.%s_e %d %d %d %d' % (op, reg(o[0]), reg(o[1]), reg(m.group(1)), int(m.group(2)))
        assert arr(2) == '8h', text
        return '.%s %d %d %d' % (op, reg(o[0]), reg(o[1]), reg(o[2]))
    if op in ('srshr', 'sshr'):
        assert arr(0) == '8h' and arr(1) == '8h'
        return '.%s %d %d %d' % (op, reg(o[0]), reg(o[1]), imm(o[2]))
    if op == 'and':
        assert arr(0) == '16b'
        return '.and %d %d %d' % tuple(map(reg, o))
    if op in ('trn1', 'trn2'):
        assert arr(0) in ('4s', '2d') and arr(0) == arr(1) == arr(2)
        return '.%s_%s %d %d %d' % ((op, arr(0)) + tuple(map(reg, o)))
    if op in ('uzp1', 'uzp2'):
        assert arr(0) == arr(1) == arr(2) == '8h'
        return '.%s %d %d %d' % ((op,) + tuple(map(reg, o)))
    if op in ('smull', 'smlal'):
        assert arr(0) == '4s' and arr(1) == arr(2) == '4h', text
        return '.%s %d %d %d' % ((op,) + tuple(map(reg, o)))
    if op in ('smull2', 'smlal2'):
        assert arr(0) == '4s' and arr(1) == arr(2) == '8h', text
        return '.%s %d %d %d' % ((op,) + tuple(map(reg, o)))
    if op == 'xtn':
        assert arr(0) == '8b' and arr(1) == '8h'
        return '.xtn %d %d' % (reg(o[0]), reg(o[1]))
    if op == 'shrn':
        assert arr(0) == '8b' and arr(1) == '8h'
        return '.shrn %d %d %d' % (reg(o[0]), reg(o[1]), imm(o[2]))
    if op == 'sli':
        assert arr(0) == '8b' and arr(1) == '8b'
        return '.sli %d %d %d' % (reg(o[0]), reg(o[1]), imm(o[2]))
    raise Exception(text)

def blocks(fn, body, tabname):
    """-> list of (instrs [(ln, lean)], None | (reg, target)), the last one ends in ret"""
    labs, bl, cur = {}, [], []
    pend = []
    for ln, lab, t in body:
        if lab:
            if cur: bl.append((cur, None)); cur = []
            labs[lab] = len(bl)
            continue
        m = re.match(r'ASM_LOAD\((\w+),\s*(\w+)\)', t.replace('ASM_LOAD (', 'ASM_LOAD('))
        if m:
            cur.append((ln, '.adr %d .%s' % (reg(m.group(1)), tabname[m.group(2)]))); continue
        if t.startswith('cbnz'):
            r, l = ops(t.split(None, 1)[1])
            bl.append((cur, (reg(r), l, ln))); cur = []
            continue
        if t.strip() == 'ret':
            bl.append((cur, 'ret')); cur = []; break
        cur.append((ln, tr(fn, t)))
    assert not cur
    return [(c, (b[0], labs[b[1]], b[2]) if isinstance(b, tuple) else b) for c, b in bl]

def wrap(items, ind, width=150):
    out, line = [], ' ' * ind
    for k, it in enumerate(items):
        s = it + (', ' if k + 1 < len(items) else '')
        if len(line) + len(s) > width:
            out.append(line.rstrip()); line = ' ' * ind
        line += s
    out.append(line.rstrip())
    return '\n'.join(out)

FILES = [('ntt', 'ntt'), ('intt', 'intt'), ('poly', 'poly')]

def emit():
    print(open(HEAD).read().rstrip().replace('@TABLES@', tables_text()).replace('@TABLE_NAMES@', tables_names()))
    print('\n/-! ## The functions -/\n')
    for prof in ('clean', 'opt'):
        for base in ('ntt', 'intt', 'poly', 'polyvec'):
            fn = '%s_%s.S' % (base, prof)
            for K in ((2, 3, 4) if base == 'polyvec' else (2,)):
                funcs, tabs = parse(fn, K)
                for name, body in funcs.items():
                    if name == 'poly_tobytes_asm_opt': continue   # neither declared nor called
                    tabname = {l: tabid(base, prof, l) for l in tabs}
                    bl = blocks(fn, body, tabname)
                    nm = name + ('_k%d' % K if base == 'polyvec' else '')
                    lns = [ln for c, _ in bl for ln, _ in c]
                    print('/-- `%s`%s, %s %d-%d. -/' % (name, ' for `MLKEM_K == %d`' % K if base == 'polyvec' else '', fn, min(lns), max(lns)))
                    print('def %s : List Block := [' % nm)
                    for i, (c, b) in enumerate(bl):
                        if isinstance(b, tuple): end = '.cbnz %d %d' % (b[0], b[1])
                        elif b == 'ret': end = '.ret'
                        else: end = '.next'
                        ll = [ln for ln, _ in c]
                        print('  -- block %d%s' % (i, ': lines %d-%d' % (min(ll), max(ll)) if ll else ''))
                        print('  ⟨[')
                        print(wrap([x for _, x in c], 4) + '],')
                        print('   %s⟩%s' % (end, ',' if i + 1 < len(bl) else ']'))
                    print()
    print('end Verif.Model.A64')

def tabid(base, prof, l):
    b = {'ntt': 'ntt', 'intt': 'intt', 'poly': 'poly', 'polyvec': 'polyvec'}[base]
    return {'const_addr': b + 'Const', 'ninv_addr': 'inttNinv', 'ninv_tw_addr': 'inttNinvTw'}[l]

def asm_tables():
    """label tables, identical in the clean and the optimised files"""
    t = {}
    for base in ('ntt', 'intt', 'poly', 'polyvec'):
        for prof in ('clean', 'opt'):
            for K in (2, 3, 4):
                _, tabs = parse('%s_%s.S' % (base, prof), K)
                for l, v in tabs.items():
                    i = tabid(base, prof, l); vals = [x for _, x in v]
                    if i in t: assert t[i][0] == vals
                    else: t[i] = (vals, [])
                    c = '%s_%s.S %d-%d' % (base, prof, v[0][0], v[-1][0])
                    if c not in t[i][1]: t[i][1].append(c)
    return t

def c_tables():
    src = open(R + 'aarch64_zetas.c').read()
    t = {}
    for m in re.finditer(r'const int16_t (\w+)\[\]\s*=\s*\{(.*?)\};', src, re.S):
        vals = [int(x) for x in re.sub(r'/\*.*?\*/', '', m.group(2), flags=re.S).replace('\n', ' ').split(',') if x.strip()]
        a = src[:m.start()].count('\n') + 1; b = src[:m.end()].count('\n') + 1
        t[m.group(1)] = (vals, ['aarch64_zetas.c %d-%d' % (a, b)])
    return t

def all_tables():
    t = dict(c_tables()); t.update(asm_tables()); return t
def tables_names():
    return '\n'.join('  | %s' % n for n in all_tables())
def tables_text():
    out = []
    for n, (v, c) in all_tables().items():
        out.append('/-- %s. -/\ndef %s : List Int := [\n%s]' % ('; '.join(c), n, wrap([str(x) for x in v], 2)))
    out.append('/-- The contents of a table.  Machine model: no line of /repo corresponds to it; the code it runs is that of the .S files cited at the programs below. -/\ndef Table.data : Table → List Int\n' + '\n'.join('  | .%s => A64.%s' % (n, n) for n in all_tables()))
    return '\n'.join(out)

if __name__ == '__main__':
    if len(sys.argv) > 1 and sys.argv[1] == 'census':
        from collections import Counter
        c = Counter()
        for prof in ('clean', 'opt'):
            for base in ('ntt', 'intt', 'poly', 'polyvec'):
                for K in ((2, 3, 4) if base == 'polyvec' else (2,)):
                    funcs, tabs = parse('%s_%s.S' % (base, prof), K)
                    for name, body in funcs.items():
                        bl = blocks('', body, {l: tabid(base, prof, l) for l in tabs})
                        print(name, K, [(len(b), e) for b, e in bl])
                        for b, _ in bl:
                            for _, t in b: c[t.split()[0]] += 1
        print(c); print({k: (len(v[0]), v[1]) for k, v in all_tables().items()})
    else: emit()
