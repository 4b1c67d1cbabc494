#!/usr/bin/env python3
"""Writes Verif/Model/A64Rej.lean; the table table_data is transcribed from rej_uniform_asm_clean.S."""
import re
S=open('/repo/mlkem/native/aarch64/rej_uniform_asm_clean.S').read()
L=S.split('\n')
a=S.index('table_data:'); b=S.index('bit_table_data:')
rows=re.findall(r'\.byte ([-0-9, ]+?)\s*//',S[a:b])
assert len(rows)==256
rows=[[int(x)%256 for x in r.split(',')] for r in rows]
assert all(len(r)==16 for r in rows)
tab=',\n'.join('  '+', '.join('['+', '.join(map(str,r))+']' for r in rows[k:k+2]) for k in range(0,256,2))
def ln(pat,start=0):
    return next(k+1 for k,l in enumerate(L) if k>=start and pat in l)
T=open('/verif/tools/a64rej.lean.in').read().replace('@TAB@',tab)
e48=ln('cmp buflen, #48',ln('loop48:'))
e24=ln('memory_copy:')
d={'L48a':ln('sub     buflen, buflen, #48'),'L48b':e48-2,'L24a':ln('sub     buflen, buflen, #24'),'L24b':e24-2,
   'La':ln('push_stack',ln('_MLKEM_NAMESPACE(rej_uniform_asm_clean):')),'Lb':ln('    ret',ln('return:'))}
print(d)
for k,v in d.items(): T=T.replace('@'+k+'@',str(v))
open('/verif/lean/Verif/Model/A64Rej.lean','w').write(T)
