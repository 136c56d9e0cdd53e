import json,sys,subprocess
# usage: ms.py "commit msg" mod1,mod2 Cxx status note [Cyy status note]...
msg=sys.argv[1]; mods=[m for m in sys.argv[2].split(',') if m]
p='/verif/tools/status.json'; d=json.load(open(p))
a=sys.argv[3:]
for i in range(0,len(a),3): d[a[i]]=[a[i+1],a[i+2]]
json.dump(d,open(p,'w'),indent=0)
s=open('/verif/lean/Verif.lean').read()
for m in mods:
    l='import Verif.'+m+'\n'
    if l not in s: s+=l
open('/verif/lean/Verif.lean','w').write(s)
subprocess.run('cd /verif && python3 tools/gen_props.py >/dev/null; python3 tools/gen_manifest.py >/dev/null; git add -A && git commit -qm "%s" && vcheck | tail -3'%msg,shell=True)
