#!/usr/bin/env python3
"""Regenerate /verif/MANIFEST.json from the theorem names Cnn_* in lean/Verif and the notes below."""
import json,re,glob,os
root=os.path.dirname(os.path.dirname(os.path.abspath(__file__)))
names={}
for f in sorted(glob.glob(root+'/lean/Verif/*.lean')):
    for m in re.finditer(r'^theorem (C(\d\d)_\w+)',open(f).read(),re.M):
        names.setdefault('C'+m.group(2),[]).append('Mbd.'+m.group(1))
exec(open(root+'/tools/notes.py').read())
claims=[]
for l in open(root+'/properties.jsonl'):
    i=json.loads(l)['id']
    th=names.get(i,[])
    if i in NOT_APPLICABLE:
        claims.append(dict(property=i,status='not_applicable',theorems=[],note=NOT_APPLICABLE[i])); continue
    if not th: continue
    # COMPLETE: the English statement itself contains the negative part
    part=i not in COMPLETE and any(t.endswith('_partial') or t.endswith('_refuted') for t in th)
    claims.append(dict(property=i,status='partial' if part else 'proved',theorems=th,note=NOTES.get(i,'')))
json.dump({"claims":claims},open(root+'/MANIFEST.json','w'),indent=1)
print(len(claims),[c['property'] for c in claims if not c['note']], sum(len(c['theorems']) for c in claims))
