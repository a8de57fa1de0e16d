# build MANIFEST.json from theorem names in Props
import re,glob,json
names={}
for f in sorted(glob.glob('/verif/lean/Verif/Props/*.lean')):
    src=open(f).read()
    ns=[]
    for line in src.split('\n'):
        m=re.match(r'namespace (\S+)',line)
        if m: ns.append(m.group(1))
        m=re.match(r'end (\S+)',line)
        if m and ns and ns[-1]==m.group(1): ns.pop()
        m=re.match(r'theorem ((C\d+)_\w*)',line)
        if m: names.setdefault(m.group(2),[]).append('.'.join(ns+[m.group(1)]))
notes=json.load(open('/verif/tools/notes.json'))
claims=[]
for l in open('/verif/properties.jsonl'):
    i=json.loads(l)['id']
    if i in names:
        n=notes.get(i,{})
        claims.append({"property":i,"status":n.get("status","proved"),"theorems":names[i],"note":n.get("note","")})
json.dump({"claims":claims},open('/verif/MANIFEST.json','w'),indent=1,ensure_ascii=False)
print(len(claims),sum(len(c['theorems']) for c in claims))
