# DESIGN.md = head + table from properties.jsonl, MANIFEST.json + tail
import json
props=[json.loads(l) for l in open('/verif/properties.jsonl')]
man={c['property']:c for c in json.load(open('/verif/MANIFEST.json'))['claims']}
meth=json.load(open('/verif/tools/methods.json'))
out=open('/verif/tools/design_head.md').read()
out+='## Properties: model, proof, status\n\n| id | property | model and proof | status |\n|---|---|---|---|\n'
for p in sorted(props,key=lambda p:int(p['id'][1:])):
    c=man.get(p['id'],{})
    st=c.get('status','')
    if c.get('note'): st+=': '+c['note']
    out+=f"| {p['id']} | {p['title']} | {meth.get(p['id'],'')} | {st} |\n"
out+=open('/verif/tools/design_tail.md').read()
open('/verif/DESIGN.md','w').write(out)
print([p['id'] for p in props if p['id'] not in meth])
