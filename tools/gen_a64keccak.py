#!/usr/bin/env python3
"""Transcribe the AArch64 Keccak assembly of /repo/fips202/native/aarch64 into Lean.

Expands the assembler macros, register aliases, #defines and constant expressions of the .S files and writes one list
of blocks per function.  Usage: gen_a64keccak.py > /verif/lean/Verif/Model/A64Keccak.lean
"""
import re, sys, os
R = '/repo/fips202/native/aarch64/'
HEAD = os.path.join(os.path.dirname(os.path.abspath(__file__)), 'a64keccak_head.txt')
FILES = ['keccak_f1600_x1_scalar_asm_opt.S', 'keccak_f1600_x1_v84a_asm_clean.S', 'keccak_f1600_x2_v84a_asm_clean.S',
         'keccak_f1600_x2_v8a_v84a_asm_hybrid.S', 'keccak_f1600_x4_scalar_v84a_asm_hybrid_opt.S',
         'keccak_f1600_x4_v8a_scalar_hybrid_asm_opt.S', 'keccak_f1600_x4_v8a_v84a_scalar_hybrid_asm_opt.S']

def ev(s, defs):
    def sub(m): return '(' + defs[m.group(0)] + ')' if m.group(0) in defs else m.group(0)
    for _ in range(8): s = re.sub(r'[A-Za-z_]\w*', sub, s)
    assert re.fullmatch(r'[-+*() 0-9]+', s), s
    return eval(s)

def parse(fn):
    """-> (name, list of (line, label | None, text)), round constants, defines)"""
    src = open(R + fn).read()
    # blank out C comments, keeping line numbers
    src = re.sub(r'/\*.*?\*/', lambda m: re.sub(r'[^\n]', ' ', m.group(0)), src, flags=re.S)
    macros, aliases, defs, out, quads = {}, {}, {}, [], []
    name, cur = None, None
    def expand(text, ln):
        nonlocal name
        text = text.split('//')[0].strip()
        if not text: return
        m = re.match(r'(_?)FIPS202_NAMESPACE\((\w+)\):$', text)
        if m:
            if not m.group(1): assert name is None; name = m.group(2)
            return
        m = re.match(r'(\w+):$', text)
        if m:
            if name: out.append((ln, m.group(1), None))
            else: assert m.group(1) == 'round_constants'
            return
        w = text.split(None, 1)
        op, rest = w[0], (w[1] if len(w) > 1 else '')
        if op == '.quad': quads.append((ln, int(rest, 16))); return
        m = re.match(r'(\w+)\s+\.req\s+(\w+)$', text)
        if m: aliases[m.group(1)] = m.group(2); return
        if op in ('.balign', '.align', '.align(8)', '.text', '.data', '.global'): return
        if op in macros:
            params, body = macros[op]
            args = [a for a in re.split(r'[,\s]+', rest) if a]
            assert len(args) == len(params), (fn, ln, text, params)
            for bl, b in body:
                for p, a in sorted(zip(params, args), key=lambda x: -len(x[0])):
                    b = b.replace('\\' + p + '\\()', a)
                    b = re.sub(r'\\' + p + r'\b', a, b)
                assert '\\' not in b, (fn, ln, b)
                expand(b, bl)
            return
        assert name is not None, (fn, ln, text)
        if text.startswith('ASM_LOAD'): op, rest = 'ASM_LOAD', text[len('ASM_LOAD'):].strip()
        rest = re.sub(r'[A-Za-z_]\w*', lambda m: aliases.get(m.group(0), m.group(0)), rest)
        out.append((ln, None, op + ' ' + rest))
    for ln, l in enumerate(src.split('\n'), 1):
        s = l.strip()
        if s.startswith('#'):
            m = re.match(r'#define\s+(\w+)\s+(.*)$', s)
            if m: defs[m.group(1)] = m.group(2).split('//')[0].strip()
            else: assert s.startswith(('#if defined(MLKEM_USE_NATIVE_AARCH64)', '#if defined(__ARM_FEATURE_SHA3)', '#endif', '#include')), s
            continue
        if s.startswith('.macro'):
            w = s.split(None, 2); cur = w[1]
            macros[cur] = ([p for p in re.split(r'[,\s]+', w[2]) if p] if len(w) > 2 else [], [])
            continue
        if s == '.endm': assert cur; cur = None; continue
        if cur: macros[cur][1].append((ln, s)); continue
        expand(s, ln)
    return name, out, quads, defs

def reg(s):
    m = re.fullmatch(r'[xwvqd](\d+)(\.\w+)?', s.strip(), re.I)
    if m: return int(m.group(1))
    if s.strip() == 'sp': return 31
    raise Exception(s)

def ops(rest):
    out, d, c = [], 0, ''
    for ch in rest:
        if ch in '[{(': d += 1
        if ch in ']})': d -= 1
        if ch == ',' and d == 0: out.append(c.strip()); c = ''
        else: c += ch
    if c.strip(): out.append(c.strip())
    return out

def tr(text, defs):
    op, rest = text.split(None, 1)
    o = ops(rest)
    def imm(s):
        assert s[0] == '#', (text, s)
        return ev(s[1:], defs)
    def addr(s, inc):
        m = re.fullmatch(r'\[\s*(\w+)\s*(,\s*(#.*))?\]', s)
        assert m, text
        off = imm(m.group(3)) if m.group(3) else 0
        assert not (off and inc)
        return reg(m.group(1)), off
    def vec(i, a): assert o[i].lower().split('.')[1] == a, text; return reg(o[i])
    x = o[0][0].lower()
    if op == 'ASM_LOAD':
        m = re.fullmatch(r'\((\w+),\s*round_constants\)', rest); return '.adr %d' % reg(m.group(1))
    if op in ('stp', 'ldp') and x in 'xd':
        assert len(o) == 3 and o[1][0] == x
        n, off = addr(o[2], 0)
        return '.%s%s %d %d %d %d' % (op, '_d' if x == 'd' else '', reg(o[0]), reg(o[1]), n, off)
    if op in ('str', 'ldr') and x == 'x':
        assert len(o) == 2
        m = re.fullmatch(r'\[(x\d+),\s*(w\d+),\s*UXTW #3\]', o[1])
        if m: assert op == 'ldr'; return '.ldr_w %d %d %d' % (reg(o[0]), reg(m.group(1)), reg(m.group(2)))
        n, off = addr(o[1], 0)
        return '.%s %d %d %d' % (op, reg(o[0]), n, off)
    if op in ('add', 'sub') and x in 'xs':
        assert o[1][0] in 'xs'
        return '.%s_i %d %d %d' % (op, reg(o[0]), reg(o[1]), imm(o[2]))
    if op == 'mov': assert x == 'x'; return '.mov_i %d %d' % (reg(o[0]), imm(o[1]))
    if op == 'cmp': assert x == 'x'; return '.cmp_i %d %d' % (reg(o[0]), imm(o[1]))
    if op == 'ror': assert x == 'x'; return '.ror %d %d %d' % (reg(o[0]), reg(o[1]), imm(o[2]))
    if op in ('eor', 'bic') and x == 'x':
        r = 0
        if len(o) == 4:
            m = re.fullmatch(r'ror\s+(#.*)', o[3]); r = imm(m.group(1))
        else: assert len(o) == 3
        assert o[1][0] == o[2][0] == 'x'
        return '.%s %d %d %d %d' % (op, reg(o[0]), reg(o[1]), reg(o[2]), r)
    if op in ('eor', 'bic') and x == 'v':
        assert len(o) == 3
        return '.v%s %d %d %d' % (op, vec(0, '16b'), vec(1, '16b'), vec(2, '16b'))
    if op in ('eor3', 'bcax'):
        assert len(o) == 4
        return '.%s %d %d %d %d' % (op, vec(0, '16b'), vec(1, '16b'), vec(2, '16b'), vec(3, '16b'))
    if op in ('add', 'rax1') and x == 'v':
        assert len(o) == 3
        return '.%s %d %d %d' % ({'add': 'vadd'}.get(op, op), vec(0, '2d'), vec(1, '2d'), vec(2, '2d'))
    if op in ('shl', 'sri'):
        assert len(o) == 3
        return '.%s %d %d %d' % (op, vec(0, '2d'), vec(1, '2d'), imm(o[2]))
    if op == 'xar':
        assert len(o) == 4
        return '.xar %d %d %d %d' % (vec(0, '2d'), vec(1, '2d'), vec(2, '2d'), imm(o[3]))
    if op == 'ld1r':
        m = re.fullmatch(r'\{(v\d+)\.2d\}', o[0], re.I)
        return '.ld1r %d %d %d' % (reg(m.group(1)), addr(o[1], 1)[0], imm(o[2]))
    if op in ('ld2', 'st2'):
        m = re.fullmatch(r'\{(v\d+)\.d,\s*(v\d+)\.d\}\[(\d)\]', o[0], re.I)
        return '.%s %d %d %d %d %d' % (op, reg(m.group(1)), reg(m.group(2)), int(m.group(3)), addr(o[1], 1)[0], imm(o[2]))
    if op in ('ld1', 'st1'):
        m = re.fullmatch(r'\{(v\d+)\.d\}\[(\d)\]', o[0], re.I)
        return '.%s %d %d %d %d' % (op, reg(m.group(1)), int(m.group(2)), addr(o[1], 1)[0], imm(o[2]))
    raise Exception(text)

def blocks(body, defs):
    labs, bl, cur = {}, [], []
    done = False
    for ln, lab, t in body:
        assert not done, t
        if lab:
            if cur: bl.append((cur, ('.next',))); cur = []
            labs[lab] = len(bl); continue
        op = t.split()[0]
        if op == 'cbnz':
            r, l = ops(t.split(None, 1)[1]); bl.append((cur, ('.cbnz %d' % reg(r), l))); cur = []
        elif op in ('ble', 'beq', 'b'):
            bl.append((cur, ('.' + op, t.split()[1]))); cur = []
        elif op == 'ret': bl.append((cur, ('.ret',))); cur = []; done = True
        else: cur.append((ln, tr(t, defs)))
    assert not cur and done
    return [(c, b[0] if len(b) == 1 else '%s %d' % (b[0], labs[b[1]])) for c, b in bl]

def wrap(items, ind, width=150):
    out, line = [], ' ' * ind
    for k, it in enumerate(items):
        s = it + (', ' if k + 1 < len(items) else '')
        if len(line) + len(s) > width: out.append(line.rstrip()); line = ' ' * ind
        line += s
    out.append(line.rstrip())
    return '\n'.join(out)

def emit():
    res = [(fn,) + parse(fn) for fn in FILES]
    qs = {tuple(v for _, v in q) for _, _, _, q, _ in res}
    assert len(qs) == 1 and len(next(iter(qs))) == 24
    cites = ', '.join('%s %d-%d' % (fn, q[0][0], q[-1][0]) for fn, _, _, q, _ in res)
    rc = '/-- The table `round_constants`, the same in every file: %s. -/\ndef round_constants : List W := [\n%s]' % (cites, wrap(['%#018x#64' % v for v in next(iter(qs))], 2))
    print(open(HEAD).read().rstrip().replace('@RC@', rc))
    print('\n/-! ## The functions -/\n')
    for fn, name, body, q, defs in res:
        bl = blocks(body, defs)
        sz = ev('STACK_SIZE', defs)
        lns = [ln for ln, _, _ in body]
        fl = next(ln for ln, l in enumerate(open(R + fn), 1) if l.startswith('FIPS202_NAMESPACE'))
        print('/-- The size of the stack frame in bytes (`STACK_SIZE`), %s.  Line %d. -/\ndef %s_frame : Nat := %d' % (fn, next(ln for ln, l in enumerate(open(R + fn), 1) if re.match(r'#define\s+STACK_SIZE', l)), name, sz))
        print('/-- `%s`, %s %d-%d, with the macros expanded; %d instructions. -/' % (name, fn, fl, max(lns), sum(len(c) for c, _ in bl)))
        print('def %s : List Block := [' % name)
        for i, (c, end) in enumerate(bl):
            ll = [ln for ln, _ in c]
            print('  -- block %d%s' % (i, ': lines %d-%d' % (min(ll), max(ll)) if ll else ''))
            print('  ⟨[')
            print(wrap([x for _, x in c], 4) + '],')
            print('   %s⟩%s' % (end, ',' if i + 1 < len(bl) else ']'))
        print()
    print('end Verif.Model.A64K')

if __name__ == '__main__':
    if len(sys.argv) > 1:
        for fn in FILES:
            name, body, q, defs = parse(fn)
            print(name, [(len(c), b) for c, b in blocks(body, defs)], ev('STACK_SIZE', defs))
    else: emit()
