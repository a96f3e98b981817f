#!/usr/bin/env python3
"""Check the /repo citations in the model: `x.go:A-B `Name`` must cover the declaration of Name. --fix rewrites A-B."""
import re,os,sys,glob
fix='--fix' in sys.argv
gof={}
for d,_,fs in os.walk('/repo'):
    for f in fs:
        if f.endswith('.go') and not f.endswith('_test.go'): gof.setdefault(f,[]).append(os.path.join(d,f))
def decl(path,name):
    base=name.split('.')[-1]; typ=name.split('.')[0] if '.' in name else None
    L=open(path).read().split('\n'); out=[]
    for i,l in enumerate(L):
        m=re.match(r'func (\([^)]*\) )?%s\b'%re.escape(base),l) 
        if m and (typ is None or typ in (m.group(1) or typ)):
            e=i
            if not l.rstrip().endswith('}'):
                while e<len(L) and not L[e].startswith('}'): e+=1
            out.append((i+1,e+1))
        elif re.match(r'type %s\b'%re.escape(base),l):
            e=i
            if l.rstrip().endswith('{'):
                while e<len(L) and not L[e].startswith('}'): e+=1
            out.append((i+1,e+1))
    return out
bad=0;unk=0;tot=0
for lf in sorted(glob.glob('/verif/lean/Verif/**/*.lean',recursive=True)):
    s=open(lf).read()
    hdr=re.findall(r'/repo/([\w/.\-]+)',s)
    def rep(m):
        global bad,unk,tot
        tot+=1
        p,a,b,n=m.group(1),int(m.group(2)),int(m.group(3) or m.group(2)),m.group(4)
        f=os.path.basename(p)
        c=[x for x in gof.get(f,[]) if x.endswith('/'+p) or p==f]
        if len(c)>1:
            c2=[x for x in c if any(h.rstrip('.') and (x[6:].startswith(h.rstrip('.')) ) for h in hdr)]
            c=c2 or c
        ds=[(x,d) for x in c for d in decl(x,n)]
        if not ds:
            unk+=1; print('?',lf[13:],m.group(0),[x[6:] for x in c][:3]); return m.group(0)
        if any(d[0]>=a-8 and a<=d[0] and d[1]<=b+0 for _,d in ds): return m.group(0)
        if any(a==d[0] or (a<=d[0]<=b) and abs(d[1]-b)<=0 for _,d in ds): return m.group(0)
        bad+=1
        best=min(ds,key=lambda t:abs(t[1][0]-a))
        print('BAD',lf[13:],m.group(0),'->',best[0][6:],best[1],'cands',len(ds))
        if fix and (len(ds)==1 or abs(best[1][0]-a)<25): return m.group(0).replace(':%s'%m.group(2)+('-'+m.group(3) if m.group(3) else ''),':%d-%d'%best[1])
        return m.group(0)
    t=re.sub(r'([\w/\-]+\.go):(\d+)(?:-(\d+))? `([A-Za-z_][\w.]*)`',rep,s)
    if fix and t!=s: open(lf,'w').write(t)
print('total',tot,'bad',bad,'unknown',unk)
