#!/usr/bin/env python3
"""Writes MANIFEST.json and lean/Verif.lean.  Theorems are collected from lean/Verif/Props by their C.. prefix."""
import json, re, glob, os
os.chdir(os.path.dirname(os.path.dirname(os.path.abspath(__file__))))
props=[json.loads(l) for l in open('properties.jsonl')]
th={}
for f in sorted(glob.glob('lean/Verif/Props/*.lean')):
    ns=[]
    for l in open(f):
        m=re.match(r'theorem (C\d+)(\w*)',l)
        if m: th.setdefault(m.group(1),[]).append('Ed.'+m.group(1)+m.group(2))
NOTES=json.load(open('tools/notes.json'))
claims=[]
for p in props:
    i=p['id']; t=th.get(i,[]); n=NOTES.get(i,{})
    st=n.get('status') or ('proved' if t else 'partial')
    note=n.get('note','')
    if not t and st!='not_applicable':
        st='partial'; note=(note+' Not proved yet: the model does not cover this part yet.').strip()
    claims.append(dict(property=i,status=st,theorems=t,note=note))
json.dump({'claims':claims},open('MANIFEST.json','w'),indent=1)
mods=sorted(f[len('lean/'):-5].replace('/','.') for f in glob.glob('lean/Verif/**/*.lean',recursive=True))
open('lean/Verif.lean','w').write(''.join(f'import {m}\n' for m in mods))
print({c['property']:len(c['theorems']) for c in claims})
