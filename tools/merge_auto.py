"""Append the results of tools/automut.py to seeded/LOG.jsonl; the claim is taken from the theorems that failed (or, if only lemmas failed, from the file's properties)."""
import json,re,sys,os
V='/verif'
title={}
for l in open(V+'/properties.jsonl'):
    d=json.loads(l); title[d['id']]=d['title']
R={}
try: R=json.load(open('/tmp/split2/R.json'))
except Exception: pass
tight=json.load(open(sys.argv[2])) if len(sys.argv)>2 else {}
out=open(V+'/seeded/LOG.jsonl','a')
n=0
for l in open(sys.argv[1]):
    d=json.loads(l)
    def ren(s):
        return re.sub(r'C\d+_\w+',lambda m:R.get(m.group(0),m.group(0)),s)
    d['failed']=[ren(x) for x in d['failed']]
    ids=[]
    for x in d['failed']:
        ids+=re.findall(r'\b(C\d+)_',x)
    if not ids:
        for x in d['failed']:
            m=re.match(r'(Props/\w+\.lean)',x)
            if m and os.path.exists(f'{V}/lean/Verif/{m.group(1)}'):
                ids+=re.findall(r'^theorem (C\d+)_',open(f'{V}/lean/Verif/{m.group(1)}').read(),re.M)
    ids=[i for i in dict.fromkeys(ids) if i in title][:3]
    if ids: d['claim']='; '.join(f'{i} {title[i]}' for i in ids)
    for k,v in tight.items():
        a,b=k.split('|',1)
        if a==d['definition'] and b in d['edit'] and d['outcome']!='killed':
            d['claim']=v['claim']; d['tightened']=v.get('tightened',[]); d['outcome']=v.get('outcome',d['outcome'])
    out.write(json.dumps(d,ensure_ascii=False)+'\n'); n+=1
print(n)
