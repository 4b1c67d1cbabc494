import json,re,glob,collections
th=collections.OrderedDict()
for f in sorted(glob.glob('/verif/lean/Verif/Props/*.lean')):
    for m in re.finditer(r'^theorem (C\d\d)(\w*)',open(f).read(),re.M):
        th.setdefault(m[1],[]).append('Verif.Props.'+m[1]+m[2])
notes=json.load(open('/verif/tools/notes.json'))
claims=[]
for l in open('/verif/properties.jsonl'):
    p=json.loads(l)['id']
    t=th.get(p,[])
    if not t: continue
    st='partial' if any(x.endswith('_partial') for x in t) else 'proved'
    claims.append({"property":p,"status":st,"theorems":t,"note":notes.get(p,"")})
json.dump({"claims":claims},open('/verif/MANIFEST.json','w'),indent=1)
print(len(claims),[c['property'] for c in claims])
