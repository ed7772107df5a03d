# Writes AXIOMS.md: the axioms each theorem of MANIFEST.json depends on.
import json,subprocess,re,os
root=os.path.dirname(os.path.dirname(os.path.abspath(__file__)))
m=json.load(open(root+'/MANIFEST.json'))
src='import Verif\n'
names=[]
for c in m['claims']:
    for t in c['theorems']:
        names.append((c['property'],t)); src+='#print axioms %s\n'%t
p='/tmp/axioms.lean'; open(p,'w').write(src)
out=subprocess.run(['lake','env','lean',p],cwd=root+'/lean',capture_output=True,text=True).stdout
d={}
for x in re.finditer(r"'([^']+)' (depends on axioms: \[([^\]]*)\]|does not depend on any axioms)",out):
    d[x.group(1)]=re.sub(r'\s+',' ',x.group(3) or 'none')
with open(root+'/AXIOMS.md','w') as f:
    f.write('# Axioms of the theorems in MANIFEST.json\n\nOutput of `#print axioms`, written by tools/axioms.py.\n\n| property | theorem | axioms |\n|---|---|---|\n')
    for a,t in names: f.write('| %s | %s | %s |\n'%(a,t,d.get(t,'?')))
print(len(names),[t for _,t in names if t not in d], set(d.values()))
