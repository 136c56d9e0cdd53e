import os,re,collections
R='/repo';V='/verif/lean/Verif'
src=[]
for d,_,fs in os.walk(R):
    if '/.git' in d: continue
    for f in fs:
        if f.endswith(('.go','.rs','.java','.kt','.swift','.tmpl')) and not f.endswith('_test.go') :
            src.append(os.path.relpath(os.path.join(d,f),R))
base=collections.defaultdict(list)
for s in src: base[os.path.basename(s)].append(s)
cited=collections.defaultdict(set)
for d,_,fs in os.walk(V):
    if 'Props' in d or '/Gen' in d: continue
    for f in fs:
        if not f.endswith('.lean'): continue
        t=open(os.path.join(d,f)).read()
        L=os.path.relpath(os.path.join(d,f),V)[:-5]
        for m in set(re.findall(r'[\w\-./]+\.(?:go|rs|java|kt|tmpl)\b',t)):
            m=m.replace('/repo/','').lstrip('./')
            c=[s for s in base[os.path.basename(m)] if s.endswith(m) or ('…' in m)]
            if len(c)>1:
                # resolve by other full citations in same file
                full=[x for x in c if os.path.dirname(x) in t]
                c=full or []
            for x in c: cited[x].add(L)
un=[s for s in src if s not in cited and '/messages/' not in s]
print(len(src),len(cited),len(un))
by=collections.defaultdict(list)
for u in un: by[os.path.dirname(u)].append(os.path.basename(u))
if __name__=='__main__':
    for k in sorted(by): print(k,':',' '.join(sorted(by[k]))[:300])
    with open('/verif/MODELLED.md','w') as f:
        f.write('# Source files and the modules that model them\nGenerated by tools/modtab.py from the citations in the model (every definition cites the lines it models; '
          'a file being listed does not mean that every line of it is modelled: what is simplified is said at the definitions).\n'
          'The generated message structs (components/kafka-protocol-go/pkg/protocol/messages) are modelled by Kafka/Schema and the tables Kafka/Gen.\n\n| source | modules under lean/Verif |\n|---|---|\n')
        for s in sorted(cited):
            if '/messages/' in s: continue
            f.write(f"| {s} | {', '.join(sorted(cited[s]))} |\n")
        f.write('\n## Source files no definition cites\n')
        for k in sorted(by): f.write(f"* {k}: {', '.join(sorted(by[k]))}\n")
