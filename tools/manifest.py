# builds MANIFEST.json from theorem names in Props files + notes
import re,glob,json
notes=json.load(open('/verif/tools/notes.json'))
names={}
for f in sorted(glob.glob('/verif/lean/Verif/Props/*.lean')):
    s=open(f).read()
    ns=re.findall(r'^namespace (\S+)',s,flags=re.M)[0]
    for m in re.finditer(r'^theorem (C\d\d+)_(\S+)',s,flags=re.M):
        names.setdefault(m.group(1),[]).append(f"{ns}.{m.group(1)}_{m.group(2)}")
props=[json.loads(l) for l in open('/verif/properties.jsonl')]
claims=[]
for p in props:
    i=p['id']; n=notes.get(i,{})
    th=names.get(i,[])
    if not th: 
        if n: claims.append(dict(property=i,status=n['status'],theorems=[],note=n['note']))
        continue
    st=n.get('status') or ('partial' if any(t.endswith('_partial') or '_refuted' in t for t in th) else 'proved')
    claims.append(dict(property=i,status=st,theorems=th,note=n.get('note','')))
json.dump(dict(claims=claims),open('/verif/MANIFEST.json','w'),indent=1,ensure_ascii=False)
print(len(claims),[ (c['property'],c['status'],len(c['theorems'])) for c in claims])
print("missing",[p['id'] for p in props if p['id'] not in [c['property'] for c in claims]])
