#!/usr/bin/env python3
"""Regenerates MANIFEST.json and lean/Verif/Audit.lean from the theorem names C<nn>_* in
lean/Verif/**.lean and the status/notes in tools/status.json."""
import json,re,glob,os
root=os.path.dirname(os.path.dirname(os.path.abspath(__file__)))
th={}
mods=[]
for f in sorted(glob.glob(root+'/lean/Verif/**/*.lean',recursive=True)):
    mod='Verif'+f.split('/lean/Verif')[1][:-5].replace('/','.')
    if mod!='Verif.Audit': mods.append(mod)
    ns=[]
    for line in open(f):
        m=re.match(r'\s*namespace\s+(\S+)',line)
        if m: ns.append(m.group(1)); continue
        m=re.match(r'\s*end\s+(\S+)',line)
        if m and ns and ns[-1]==m.group(1): ns.pop(); continue
        m=re.match(r"theorem\s+(C\d+_[\w']+)",line)
        if m:
            th.setdefault(m.group(1).split('_')[0],[]).append('.'.join(ns+[m.group(1)]))
st=json.load(open(root+'/tools/status.json'))
claims=[]
for l in open(root+'/properties.jsonl'):
    if not l.strip(): continue
    d=json.loads(l); i=d['id']
    s=st.get(i,{})
    ts=th.get(i,[])
    status=s.get('status') or ('proved' if ts else None)
    if not ts and status is None:
        print('no theorems for',i); continue
    claims.append({'property':i,'status':status,'theorems':ts,'note':s.get('note','')})
json.dump({'claims':claims},open(root+'/MANIFEST.json','w'),indent=1,ensure_ascii=False)
open(root+'/lean/Verif.lean','w').write(''.join('import %s\n'%m for m in mods)+'import Verif.Audit\n')
names=[n for c in claims for n in c['theorems']]
with open(root+'/lean/Verif/Audit.lean','w') as a:
    a.write(''.join('import %s\n'%m for m in mods if 'Props' in m or True))
    a.write('\n/-! Prints the axioms every property theorem depends on (generated by tools/manifest.py). -/\n\n')
    a.write(''.join('#print axioms %s\n'%n for n in names))
print(len(claims),'claims',len(names),'theorems')
