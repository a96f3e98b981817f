#!/usr/bin/env python3
"""Mutation testing of the model. Usage: mutate.py FILE.json
FILE.json: list of {file, old, new, definition, claim, expect:[...], edit, modules:[...]}; works in the scratch copy /tmp/mut/lean
and prints which declarations fail; results are appended to the file given by --log."""
import json,sys,os,re,subprocess,shutil
SRC='/verif/lean'; DST='/tmp/mut/lean'
def sync():
    os.makedirs('/tmp/mut',exist_ok=True)
    subprocess.run(['rsync','-a','--delete',SRC+'/',DST+'/'] ) if shutil.which('rsync') else (shutil.rmtree(DST,ignore_errors=True),subprocess.run(['cp','-a',SRC,DST]))
def decl_at(f,line):
    name='?'
    for i,l in enumerate(open(f),1):
        if i>line: break
        m=re.match(r"\s*(?:private |protected |noncomputable |local )*(?:theorem|lemma|def|example|instance|structure)\s*([\w'.]*)",l)
        if m: name=m.group(1) or 'example:%d'%i
    return name
def closure(failed,areas):
    # C-theorems that mention (transitively) a failed helper, textual
    bodies={}
    for d,_,fs in os.walk(DST+'/Verif'):
        if os.path.relpath(d,DST) not in areas: continue
        for fn in fs:
            if not fn.endswith('.lean'): continue
            cur=None
            for l in open(os.path.join(d,fn)):
                m=re.match(r"(?:private |noncomputable )*(?:theorem|lemma|def)\s+([\w'.]+)",l)
                if m: cur=m.group(1); bodies.setdefault(cur,''); 
                if cur: bodies[cur]+=l
    users={}
    for n,b in bodies.items():
        for t in set(re.findall(r"[\w'.]+",b)):
            parts=t.split('.')
            for k in range(len(parts)): users.setdefault('.'.join(parts[k:]),set()).add(n)
            for x in parts: users.setdefault(x,set()).add(n)
    bad=set(failed); todo=list(bad)
    while todo:
        x=todo.pop()
        if x.startswith('example'): continue
        for n in users.get(x,()):
            if n not in bad: bad.add(n); todo.append(n)
    return sorted(x for x in bad if re.match(r'C\d+_',x))
def main():
    muts=json.load(open(sys.argv[1]))
    sync()
    for m in muts:
        p=DST+'/'+m['file']
        orig=open(p).read()
        if orig.count(m['old'])<1:
            print('NOT FOUND',m['definition'],repr(m['old'])); continue
        open(p,'w').write(orig.replace(m['old'],m['new'],1))
        failed=[]
        r=subprocess.run(['lake','build']+m['modules'],cwd=DST,capture_output=True,text=True)
        out=r.stdout+r.stderr
        modfail=False
        for e in re.finditer(r'error: (Verif/\S+?\.lean):(\d+):\d+:(.*)',out):
            n=decl_at(DST+'/'+e.group(1),int(e.group(2)))
            if n not in failed: failed.append(n)
            if e.group(1)==m['file'] and 'Model' in e.group(1): modfail=True
        dep=closure(failed,{os.path.dirname(m['file'])}|{'/'.join(x.split('.')[:-1]) for x in m['modules']})
        hit=[t for t in dep if any(t.startswith(c+'_') for c in m['claims'])]
        verdict='OK' if hit else 'SURVIVED'
        if r.returncode!=0 and not failed: verdict='CRASH '+out[-300:]
        if modfail: verdict+=' (MODEL BROKEN)'
        print(verdict,'|',m['definition'],'|',m['edit'],'| failed:',failed[:8],'| props:',dep)
        sys.stdout.flush()
        rec={'definition':m['definition'],'edit':m['edit'],'claim_broken':m['claims'],'theorems_failed':failed,'property_theorems_no_longer_proved':dep,'theorems_tightened':[]}
        with open('/tmp/mut/results.jsonl','a') as f: f.write(json.dumps(rec,ensure_ascii=False)+'\n')
        open(p,'w').write(orig)
main()
