#!/usr/bin/env python3
"""Print the gates of br_aes_ct64_bitslice_Sbox (/repo/test/nistrng/aes.c) as a Lean list."""
import re
src = open('/repo/test/nistrng/aes.c').read().split('\n')
start = next(i for i, l in enumerate(src) if 'static void br_aes_ct64_bitslice_Sbox' in l)
out, first, last = [], None, None
def reg(s):
    m = re.fullmatch(r'([xytzs])(\d+)', s)
    return '(.%s %s)' % m.groups()
for i in range(start, len(src)):
    if src[i].startswith('}'):
        break
    m = re.fullmatch(r'\s*([ytzs]\d+) = ([xytzs]\d+) ([&^]) (~?)([xytzs]\d+);', src[i])
    if m:
        d, a, op, n, b = m.groups()
        k = 'and' if op == '&' else 'xnor' if n else 'xor'
        assert not (n and op == '&')
        first = first or i + 1
        last = i + 1
        out.append('.%s %s %s %s' % (k, reg(d), reg(a), reg(b)))
print('/-- The assignments of `br_aes_ct64_bitslice_Sbox`, aes.c %d-%d, in order. -/' % (first, last))
print('def sboxGates : List Gate :=')
for i in range(0, len(out), 5):
    print(('  [' if i == 0 else '   ') + ', '.join(out[i:i + 5]) + (']' if i + 5 >= len(out) else ','))
