import subprocess,sys,random
def pp(n):
    if n<4: return n>1
    if n%2==0: return False
    d=n-1;s=0
    while d%2==0:d//=2;s+=1
    for a in (2,3,5,7,11,13,17,19,23,29,31,37):
        if a%n==0: continue
        x=pow(a,d,n)
        if x in(1,n-1): continue
        for _ in range(s-1):
            x=x*x%n
            if x==n-1: break
        else: return False
    return True
def fac(n):
    fs=[];d=2
    while d<200000 and d*d<=n:
        while n%d==0: fs.append(d); n//=d
        d+=1
    st=[n] if n>1 else []
    while st:
        n=st.pop()
        if pp(n): fs.append(n); continue
        if n.bit_length()<100:
            o=subprocess.run(['factor',str(n)],capture_output=True,text=True).stdout.split(':')[1].split()
            fs+=list(map(int,o)); continue
        for B1,c in [(2000,60),(11000,100),(50000,250),(250000,500),(1000000,1000),(3000000,2400)]:
            o=subprocess.run(['./ecm',str(n),str(B1),str(c),str(random.randrange(10**6))],capture_output=True,text=True).stdout
            if 'FOUND' in o:
                f=int(o.split()[1]); st+=[f,n//f]; break
        else: raise Exception(n)
    return sorted(fs)
m=402096035359507321594726366720466575392706800671181159425656785868777272553337714697862511267018014931937703598282857976535744623203249
have=set()
import re
for f in ['/verif/lean/Verif/Native/Primes.lean','/verif/lean/Verif/Bls381/Prime.lean']:
    for x in re.findall(r'theorem prime_(\d+)',open(f).read()): have.add(int(x))
out=[]
def emit(p):
    if p in have: return
    have.add(p)
    if p<5000: out.append(f"theorem prime_{p} : Nat.Prime {p} := by norm_num\n"); return
    l=fac(p-1); print(p,l,flush=True)
    for q in sorted(set(l)): emit(q)
    a=2
    while not (pow(a,p-1,p)==1 and all(pow(a,(p-1)//q,p)!=1 for q in set(l))): a+=1
    ls=', '.join(map(str,l))
    out.append(f"theorem prime_{p} : Nat.Prime\n    {p} :=\n  pratt _ {a} [{ls}]\n    "+''.join(f"(all_cons prime_{q} " for q in l)+"all_nil"+')'*len(l)+"\n    (by decide +kernel) (by decide +kernel) (by decide +kernel)\n")
for p in [13,23,2713,11953,262069,m]: emit(p)
open('out.lean','w').write('\n'.join(out))
