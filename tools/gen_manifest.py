"""Collect the theorems Cxx_* of lean/Verif/Props and write MANIFEST.json."""
import json,re,glob,os
root='/verif'
ths={}
for f in sorted(glob.glob(root+'/lean/Verif/Props/*.lean')):
    for m in re.finditer(r'^theorem ((C\d\d)_\w+)',open(f).read(),re.M):
        ths.setdefault(m.group(2),[]).append('Verif.'+m.group(1))
notes=json.load(open(root+'/tools/manifest_notes.json'))
claims=[]
for l in open(root+'/properties.jsonl'):
    i=json.loads(l)['id']
    n=notes.get(i,{})
    if i in ths:
        claims.append(dict(property=i,status=n.get('status','proved'),theorems=ths[i],note=n.get('note','')))
json.dump({"claims":claims},open(root+'/MANIFEST.json','w'),indent=1)
print(len(claims),sum(len(c['theorems']) for c in claims))
