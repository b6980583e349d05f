#!/usr/bin/env python3
"""Writes AXIOMS.md: the axioms each theorem of the manifest depends on, as `#print axioms` says."""
import json,re,subprocess,os
ths=list(dict.fromkeys(t for c in json.load(open('/verif/MANIFEST.json'))['claims'] for t in c['theorems']))
os.makedirs('/tmp/ax',exist_ok=True)
open('/tmp/ax/a.lean','w').write('import Verif\n'+''.join(f'#print axioms Pyopenapi.{t}\n' for t in ths))
out=subprocess.run('lake env lean /tmp/ax/a.lean',shell=True,cwd='/verif/lean',capture_output=True,text=True).stdout
out=out.replace('\n  ',' ').replace(',\n',',')
got={}
for m in re.finditer(r"'Pyopenapi\.([^']+)' (?:depends on axioms: \[([^\]]*)\]|does not depend on any axioms)",out):
    got[m[1]]=', '.join(x.strip() for x in m[2].split(',')) if m[2] else 'none'
miss=[t for t in ths if t not in got]
assert not miss,miss
with open('/verif/AXIOMS.md','w') as f:
    f.write('# Axioms of the theorems in MANIFEST.json\n\nGenerated by tools/axioms.py from `#print axioms`. All names are in the namespace Pyopenapi.\n')
    for a in sorted(set(got.values()),key=len):
        f.write(f'\n## {a}\n\n'+', '.join(f'`{t}`' for t in ths if got[t]==a)+'\n')
print(len(got))
