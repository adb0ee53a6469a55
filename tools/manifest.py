#!/usr/bin/env python3
"""Regenerates MANIFEST.json from the theorem names in lean/Verif/Props and the notes below."""
import re,glob,json,os
root=os.path.dirname(os.path.dirname(os.path.abspath(__file__)))
thms={}
for f in sorted(glob.glob(root+'/lean/Verif/Props/**/*.lean',recursive=True)):
    for m in re.finditer(r'^theorem (C(\d\d)_\w+)',open(f).read(),re.M):
        thms.setdefault('C'+m.group(2),[]).append('PdfW.Props.'+m.group(1))
notes=json.load(open(root+'/tools/notes.json'))
claims=[]
for l in open(root+'/properties.jsonl'):
    d=json.loads(l); i=d['id']
    if i not in thms: continue
    n=notes.get(i,{})
    part=any(t.endswith('_partial') for t in thms[i])
    claims.append({"property":i,"status":n.get('status','partial' if part else 'proved'),"theorems":thms[i],"note":n.get('note','')})
json.dump({"claims":claims},open(root+'/MANIFEST.json','w'),indent=1)
print(len(claims),'claims; missing:',[json.loads(l)['id'] for l in open(root+'/properties.jsonl') if json.loads(l)['id'] not in thms])
