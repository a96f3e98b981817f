#!/usr/bin/env python3
"""Append /tmp/mut/results.jsonl to seeded/LOG.jsonl. usage: logmut.py [notes.json] ; notes: {edit: {tightened:[..], note:..}}"""
import json,sys,os
notes=json.load(open(sys.argv[1])) if len(sys.argv)>1 else {}
props={json.loads(l)['id']:json.loads(l)['title'] for l in open('/verif/properties.jsonl') if l.strip()}
with open('/verif/seeded/LOG.jsonl','a') as f:
    for l in open('/tmp/mut/results.jsonl'):
        r=json.loads(l)
        n=notes.get(r['edit'],{})
        r['claim_broken']='; '.join(c+' '+props.get(c,'') for c in r['claim_broken'])
        r['theorems_tightened']=n.get('tightened',[])
        if 'note' in n: r['note']=n['note']
        f.write(json.dumps(r,ensure_ascii=False)+'\n')
os.remove('/tmp/mut/results.jsonl')
