#!/usr/bin/env python3
"""Turns components/kafka-protocol-go/assets/protocol_spec/*.json into Lean data (lean/Verif/Kafka/Gen/Spec.lean): the raw
strings of the JSON files, nothing is interpreted here. JSON with comments (hujson) is reduced to JSON first."""
import json, re, glob, os
REPO = os.environ.get('REPO', '/repo')
D = REPO + '/components/kafka-protocol-go/assets/protocol_spec/'
OUT = os.path.dirname(os.path.dirname(os.path.abspath(__file__))) + '/lean/Verif/Kafka/Gen/Spec.lean'

def load(f):
    s = open(f).read(); out = []; i = 0; ins = False
    while i < len(s):
        c = s[i]
        if ins:
            out.append(c)
            if c == '\\': out.append(s[i+1]); i += 1
            elif c == '"': ins = False
        elif c == '"': ins = True; out.append(c)
        elif s.startswith('//', i):
            while i < len(s) and s[i] != '\n': i += 1
            continue
        elif s.startswith('/*', i): i = s.index('*/', i) + 2; continue
        else: out.append(c)
        i += 1
    return json.loads(re.sub(r',(\s*[\]}])', r'\1', ''.join(out)))

def q(s): return json.dumps(s) + '.toList'
def jv(v):
    if v is None: return None
    if isinstance(v, bool): return '.bool %s' % str(v).lower()
    if isinstance(v, int): return '.num (%d)' % v
    if isinstance(v, str): return '.str %s' % q(v)
    raise Exception(v)
KNOWN = {'name', 'type', 'mapKey', 'default', 'entityType', 'zeroCopy', 'versions', 'flexibleVersions', 'nullableVersions',
         'taggedVersions', 'ignorable', 'tag', 'about', 'fields'}
def fs(l, ind):
    pad = '  ' * ind
    if not l: return pad + '.nil'
    out = ''
    for x in l:
        for k in x:
            if k not in KNOWN: raise Exception('unknown key ' + k)
        p = ['name := ' + q(x['name']), 'typ := ' + q(x['type']), 'versions := ' + q(x['versions'])]
        for k, n in (('flexibleVersions', 'flex'), ('nullableVersions', 'nullable'), ('taggedVersions', 'tagged')):
            if x.get(k): p.append('%s := %s' % (n, q(x[k])))
        d = jv(x.get('default'))
        if d: p.append('dflt := some (%s)' % d)
        if x.get('ignorable'): p.append('ignorable := true')
        if x.get('tag') is not None: p.append('tag := some %d' % x['tag'])
        sub = x.get('fields') or []
        out += pad + '(.cons { ' + ', '.join(p) + ' }' + (' .nil\n' if not sub else '\n' + fs(sub, ind + 1) + '\n')
    return out + pad + '.nil' + ')' * len(l) if True else ''
def wrap(l, ind):
    s = fs(l, ind)
    return s if l == [] else s
out = ['import Verif.Kafka.Generator',
       '/- Generated by tools/extract_spec.py from components/kafka-protocol-go/assets/protocol_spec/*.json. Do not edit. -/',
       'namespace Verif.Kafka.Gen', 'open Verif.Kafka', '']
tabs = {'header': [], 'request': [], 'response': []}
skipped = []
for f in sorted(glob.glob(D + '*.json')):
    j = load(f); n = os.path.basename(f)[:-5]
    assert j['name'] == n, n
    if j['type'] == 'data': skipped.append(n); continue
    cs = ['(%s,\n%s)' % (q(c['name']), fs(c['fields'], 2)) for c in j.get('commonStructs', [])]
    out.append('/-- assets/protocol_spec/%s.json -/' % n)
    out.append('def p_%s : MSpec where' % n)
    out.append('  apiKey := %d' % j.get('apiKey', 0))
    out.append('  typ := %s' % q(j['type']))
    out.append('  name := %s' % q(n))
    out.append('  valid := %s' % q(j['validVersions']))
    out.append('  flex := %s' % q(j['flexibleVersions']))
    out.append('  common := [%s]' % ',\n    '.join(cs))
    out.append('  fields :=\n%s' % fs(j['fields'], 2))
    out.append('')
    tabs[j['type']].append((j.get('apiKey', 0), n))
for t in ('header', 'request', 'response'):
    out.append('/-- every %s specification (in the order of the generated packages) -/' % t)
    out.append('def %sSpecs : List MSpec := [\n  ' % t + ', '.join('p_' + n for _, n in sorted(tabs[t], key=lambda x: x[1].lower()[:-len(t)])) + ']\n')
out.append('end Verif.Kafka.Gen')
open(OUT, 'w').write('\n'.join(out) + '\n')
print({k: len(v) for k, v in tabs.items()}, 'not generated (data):', skipped)
