#!/usr/bin/env python3
"""Writes MANIFEST.json: collects the theorems named C<nn>_... in lean/Verif/Props and the notes below."""
import json,re,glob
N=json.load(open('/verif/tools/notes.json'))
T={}
for f in sorted(glob.glob('/verif/lean/Verif/Props/*.lean')):
    s=open(f).read()
    for m in re.finditer(r'^theorem ((C\d\d)_\w+)',s,re.M):
        T.setdefault(m.group(2),[]).append('Fajt.Props.'+m.group(1))
out=[]
for l in open('/verif/properties.jsonl'):
    i=json.loads(l)['id']; n=N.get(i,{})
    th=T.get(i,[])
    st=n.get('status') or ('proved' if th else 'partial')
    out.append(dict(property=i,status=st,theorems=th,note=n.get('note','')))
json.dump(dict(claims=out),open('/verif/MANIFEST.json','w'),indent=1)
for x in out: print(x['property'],x['status'],len(x['theorems']))
