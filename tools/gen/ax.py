import json,subprocess
M=json.load(open('/verif/MANIFEST.json'))['claims']
th=[t for c in M for t in c['theorems']]
src='import Verif\n'+'\n'.join(f'#print axioms {t}' for t in th)
open('/tmp/w/Ax.lean','w').write(src)
o=subprocess.run('cd /verif/lean && lake env lean /tmp/w/Ax.lean',shell=True,capture_output=True,text=True).stdout
import re,collections
c=collections.Counter()
for m in re.finditer(r"'([^']+)' (depends on axioms: \[[^\]]*\]|does not depend on any axioms)",o.replace('\n',' ')): c[m.group(2)]+=1
print(c); open('/tmp/w/ax.out','w').write(o)
