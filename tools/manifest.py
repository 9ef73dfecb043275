import re,json,glob
notes=json.load(open('/verif/tools/notes.json'))
claims={}
for f in sorted(glob.glob('/verif/lean/Verif/Props/*.lean')):
    s=open(f).read()
    ns=[]
    pos=0
    for m in re.finditer(r'^(namespace|end) (\S+)|/--((?:(?!-/).)*)-/\s*(?:@\[[^\]]*\]\s*)?theorem (\S+)',s,re.M|re.S):
        if m.group(1)=='namespace': ns.append(m.group(2))
        elif m.group(1)=='end': 
            assert ns and ns[-1]==m.group(2),(f,m.group(0),ns); ns.pop()
        else:
            ids=re.findall(r'\bC\d\d+\b',re.match(r'\s*\*\*(.*?)\*\*',m.group(3)).group(1)) if re.match(r'\s*\*\*C\d',m.group(3)) else []
            for i in ids: claims.setdefault(i,[]).append('.'.join(ns+[m.group(4)]))
props=[json.loads(l)['id'] for l in open('/verif/properties.jsonl')]
out=[]
for p in props:
    if p in claims:
        n=notes.get(p,["proved",""])
        out.append({"property":p,"status":n[0],"theorems":claims[p],"note":n[1]})
json.dump({"claims":out},open('/verif/MANIFEST.json','w'),indent=1)
print(len(out),sum(len(c['theorems']) for c in out)); print([p for p in props if p not in claims])
