#!/usr/bin/env python3
"""Writes Verif/Model/X86Rej.lean; the table idx is transcribed from rej_uniform_avx2.c."""
import re
S=open('/repo/mlkem/native/x86_64/rej_uniform_avx2.c').read()
L=S.split('\n')
a=S.index('static const uint8_t idx[256][8]'); b=S.index('};',a)
rows=re.findall(r'\{([-0-9, ]+)\}',S[a:b+1])
assert len(rows)==256
rows=[[int(x)%256 for x in r.split(',')] for r in rows]
assert all(len(r)==8 for r in rows)
tab=',\n'.join('  '+', '.join('['+', '.join(map(str,r))+']' for r in rows[k:k+4]) for k in range(0,256,4))
def ln(pat,start=0):
    return next(k+1 for k,l in enumerate(L) if k>=start and pat in l)
print(ln('idx[256][8]'), ln('{2, 4, 6, 8, 10, 12, 14, -1},     {0, 2, 4, 6, 8, 10, 12, 14}'), ln('unsigned int rej_uniform_avx2'), ln('while (ctr <= MLKEM_N - 32'), ln('while (ctr <= MLKEM_N - 8'), ln('while (ctr < MLKEM_N'), ln('return ctr;'))
T=open('/verif/tools/x86rej.lean.in').read().replace('@TAB@',tab)
open('/verif/lean/Verif/Model/X86Rej.lean','w').write(T)
