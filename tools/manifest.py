import json,re,glob,os
exec(open('/verif/tools/notes.py').read())
thms={}
for f in sorted(glob.glob('/verif/lean/Verif/Props/*.lean')):
    ns=[]
    for l in open(f):
        m=re.match(r'\s*namespace\s+(\S+)',l)
        if m: ns.append(m.group(1))
        m=re.match(r'\s*end\s+(\S+)',l)
        if m and ns and ns[-1]==m.group(1): ns.pop()
        m=re.match(r'\s*theorem\s+(C\d\d)(_\S+)',l)
        if m: thms.setdefault(m.group(1),[]).append('.'.join(ns+[m.group(1)+m.group(2)]))
claims=[]
for l in open('/verif/properties.jsonl'):
    i=json.loads(l)['id']
    if i in thms:
        st,note=NOTES.get(i,('proved',''))
        claims.append(dict(property=i,status=st,theorems=thms[i],note=note))
    elif i in NOTES: 
        claims.append(dict(property=i,status=NOTES[i][0],theorems=[],note=NOTES[i][1]))
json.dump(dict(claims=claims),open('/verif/MANIFEST.json','w'),indent=1)
print(len(claims),'claims',sum(len(c['theorems']) for c in claims),'theorems')
