import json,sys
sys.path.insert(0,'/tmp')
def add(P,D,S):
    have={json.loads(l)["id"] for l in open("properties.jsonl")}
    with open("properties.jsonl","a") as f:
        for (i,t,s,q,w,a) in P:
            if i in have: continue
            f.write(json.dumps(dict(id=i,title=t,statement=s,quantifier=q,why_tests_cant=w,anchors=a))+"\n")
    d=open("DESIGN.md").read()
    for k,v in D.items():
        t=[p[1] for p in P if p[0]==k]
        t=t[0] if t else ""
        if f"* **{k}**" not in d: d=d.rstrip("\n")+f"\n* **{k}** {t}. {v}\n"
    open("DESIGN.md","w").write(d)
    st=json.load(open("tools/status.json")); st.update(S); json.dump(st,open("tools/status.json","w"),indent=1)
