import json,re,glob
notes=json.load(open('/verif/tools/notes.json'))
# collect theorem names by property id from Props files
th={}
for f in sorted(glob.glob('/verif/lean/Verif/Props/*.lean')):
    ns='OrdinalMap.Props'
    for m in re.finditer(r'^theorem (C(\d+)\w*)',open(f).read(),re.M):
        th.setdefault('C'+m.group(2),[]).append(ns+'.'+m.group(1))
props=[json.loads(l)['id'] for l in open('/verif/properties.jsonl')]
claims=[]
for p in props:
    t=th.get(p,[])
    st,note=notes.get(p,(None,''))
    if not t:
        st='partial'; note='not proved yet'
    elif st is None: st='proved'
    claims.append({"property":p,"status":st,"theorems":t,"note":note})
json.dump({"claims":claims},open('/verif/MANIFEST.json','w'),indent=1,ensure_ascii=False)
print({s:[c['property'] for c in claims if c['status']==s] for s in ('proved','partial','not_applicable')})
