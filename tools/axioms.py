#!/usr/bin/env python3
"""Writes AXIOMS.md: the axioms every theorem of the manifest depends on (#print axioms)."""
import json,subprocess,re
m=json.load(open('/verif/MANIFEST.json'))
names=sorted({t for c in m['claims'] for t in c['theorems']})
open('/tmp/ax.lean','w').write('import Verif\n'+'\n'.join(f'#print axioms {n}' for n in names))
r=subprocess.run('lake env lean /tmp/ax.lean',shell=True,cwd='/verif/lean',capture_output=True,text=True).stdout
r=re.sub(r'\n\s+',' ',r)
groups={}
for l in r.splitlines():
    g=re.match(r"'(\S+)' depends on axioms: \[(.*)\]",l)
    if g: groups.setdefault(g.group(2),[]).append(g.group(1)); continue
    g=re.match(r"'(\S+)' does not depend",l)
    if g: groups.setdefault('none',[]).append(g.group(1))
allowed={'propext','Classical.choice','Quot.sound'}
with open('/verif/AXIOMS.md','w') as f:
    f.write('# Axioms of every theorem in MANIFEST.json\n\nGenerated by tools/axioms.py from `#print axioms`.\n')
    for k in sorted(groups):
        assert k=='none' or set(x.strip() for x in k.split(','))<=allowed,k
        f.write(f'\n## {k} ({len(groups[k])})\n\n'+' '.join(x.replace("ACE.Props.","") for x in groups[k])+'\n')
n=sum(map(len,groups.values()))
assert n==len(names),(n,len(names))
print(n,'theorems',{k:len(v) for k,v in groups.items()})
