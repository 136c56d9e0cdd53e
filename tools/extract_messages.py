#!/usr/bin/env python3
"""Extracts the generated Kafka message structs of /repo into Lean tables (lean/Verif/Kafka/Gen/Messages.lean).

For every generated Go file under components/kafka-protocol-go/pkg/protocol/messages it reads the field contexts, the
field order and types, the defaults (SetDefault), the fields checked by validateNonIgnorableFields and the
supported/flexible version functions, and checks that Read, Write and SizeInBytes process exactly those fields in that
order with the guards the template emits."""
import re, os, sys
REPO = os.environ.get('REPO', '/repo')
BASE = REPO + '/components/kafka-protocol-go/pkg/protocol/messages'
MOD = 'github.com/cisco-open/libnasp/components/kafka-protocol-go/pkg/protocol/messages'
OUT = os.path.dirname(os.path.dirname(os.path.abspath(__file__))) + '/lean/Verif/Kafka/Gen/Messages.lean'

structs = {}   # (pkgdir, name) -> dict
warn = []

def body(src, sig):
    i = src.find(sig)
    if i < 0: return None
    j = src.index('{', i + len(sig) - 1) if not sig.endswith('{') else i + len(sig) - 1
    d = 0
    for k in range(j, len(src)):
        if src[k] == '{': d += 1
        elif src[k] == '}':
            d -= 1
            if d == 0: return src[j+1:k]
    raise Exception('unbalanced')

def camel(name):
    return name[0].lower() + name[1:]

def parse(path):
    src = open(path).read()
    if 'fields.Context{' not in src and 'unknownTaggedFields' not in src: return
    pkgdir = os.path.relpath(os.path.dirname(path), BASE)
    m = re.search(r'^type (\w+) struct \{', src, re.M)
    name = m.group(1)
    imports = {}
    for im in re.finditer(r'^\s*(?:(\w+) )?"([^"]+)"', src, re.M):
        p = im.group(2)
        if p.startswith(MOD):
            imports[im.group(1) or p.split('/')[-1]] = os.path.relpath(BASE + p[len(MOD):], BASE)
    ctxs = {}
    order = []
    for cm in re.finditer(r'^var (\w+) = fields\.Context\{(.*?)^\}', src, re.M | re.S):
        d = {}
        for kv in re.finditer(r'(\w+):\s*(.+?),\s*$', cm.group(2), re.M):
            d[kv.group(1)] = kv.group(2)
        ctxs[cm.group(1)] = d
        order.append(cm.group(1))
    props = {}
    for gm in re.finditer(r'^func \(o \*%s\) (\w+)\(\) (\S+) \{\s*return o\.(\w+)\s*\}' % name, src, re.M):
        if gm.group(1) in ('UnknownTaggedFields', 'IsNil'): continue
        props[gm.group(1)] = (gm.group(2), gm.group(3))
    sd = body(src, 'func (o *%s) SetDefault() {' % name)
    val = body(src, 'func (o *%s) validateNonIgnorableFields(version int16) error {' % name)
    rd = body(src, 'func (o *%s) Read(buf *bytes.Reader, version int16) error {' % name)
    wr = body(src, 'func (o *%s) Write(buf *typesbytes.SliceWriter, version int16) error {' % name)
    sz = body(src, 'func (o *%s) SizeInBytes(version int16) (int, error) {' % name)
    fields = []
    for cn in order:
        c = ctxs[cn]
        prop = None
        for p in props:
            if cn.endswith(p) and cn[:len(cn)-len(p)].lower() == name.lower():
                prop = p
        if prop is None: raise Exception('no property for %s in %s' % (cn, path))
        typ, fn = props[prop]
        f = dict(name=fn, prop=prop, ctxname=cn, typ=typ)
        g = lambda k, dv=0: int(c.get(k, dv))
        f['lo'], f['hi'] = g('LowestSupportedVersion'), g('HighestSupportedVersion')
        f['flo'], f['fhi'] = g('LowestSupportedFlexVersion'), g('HighestSupportedFlexVersion')
        f['nlo'], f['nhi'] = g('LowestSupportedNullableVersion'), g('HighestSupportedNullableVersion')
        tm = re.match(r'fields\.Tag\((\d+)\)', c.get('SpecTag', ''))
        f['tag'] = int(tm.group(1)) if tm else None
        f['tlo'], f['thi'] = (g('LowestSupportedTaggedVersion'), g('HighestSupportedTaggedVersion')) if tm else (-1, -1)
        f['specname'] = c['SpecName'].strip('"')
        # default from SetDefault, cross-checked with the context's custom default
        dm = re.search(r'o\.%s\.SetValue\("(.*?)"\)' % fn, sd)
        dflt = '.none'
        if typ == 'fields.NullableString':
            if dm.group(1) != '': dflt = '(.str %s)' % ('[' + ', '.join(str(b) for b in dm.group(1).encode()) + ']')
            if (dm.group(1) != '') != ('CustomDefaultValue' in c): warn.append('default mismatch %s %s' % (path, fn))
        elif typ in ('int8', 'int16', 'int32', 'int64', 'uint16', 'bool', 'float64'):
            v = re.search(r'o\.%s = (\S+)' % fn, sd).group(1)
            if typ == 'bool':
                if 'CustomDefaultValue' in c: dflt = '(.bool %s)' % v
                elif v != 'false': warn.append('bool default %s %s' % (path, fn))
            else:
                vi = int(v, 0)
                if typ == 'float64' and vi != 0: warn.append('float default %s %s' % (path, fn))
                if 'CustomDefaultValue' in c: dflt = '(.int (%d))' % vi
                elif vi != 0: warn.append('int default %s %s' % (path, fn))
        elif 'CustomDefaultValue' in c: warn.append('custom default %s %s' % (path, fn))
        f['dflt'] = dflt
        f['checked'] = (cn + '.IsSupportedVersion') in val
        # template conformance of the guards
        only = f['tag'] is not None and f['tlo'] == f['lo'] and f['thi'] == f['hi']
        untag_read = rd.split('// process tagged fields')[0]
        reads = ('%sField.Read(buf' % fn) in untag_read or ('o.%s.Read(buf' % fn) in untag_read
        if reads == only: warn.append('read guard %s %s' % (path, fn))
        writes = ('%sField.Write(buf' % fn) in wr or ('o.%s.Write(buf' % fn) in wr
        if writes == only: warn.append('write guard %s %s' % (path, fn))
        guarded = re.search(r'if !%s\.IsTaggedVersion\(version\) \{\s*(?:\w+Field :=[^\n]*(?:\n\s+Context[^\n]*\n[^\n]*)?)?\s*(?:if |\w+, err :=)' % cn, untag_read) is not None
        if guarded != (f['tag'] is not None and not only): warn.append('tag guard %s %s %s' % (path, fn, guarded))
        fields.append(f)
    # order of untagged processing
    def seq(txt, pat):
        return [m.group(1) for m in re.finditer(pat, txt)]
    exp = [f['name'] for f in fields if not (f['tag'] is not None and f['tlo'] == f['lo'] and f['thi'] == f['hi'])]
    r = seq(rd.split('// process tagged fields')[0], r'(?:\b|o\.)(\w+?)(?:Field)?\.Read\(buf, version')
    w = seq(wr.split('// serialize tagged fields')[0], r'(?:\b|o\.)(\w+?)(?:Field)?\.Write\(buf, version')
    s = seq(sz.split('// tagged fields')[0], r'(?:\b|o\.)(\w+?)(?:Field)?\.SizeInBytes\(version')
    if r != exp: warn.append('read order %s %s %s' % (path, r, exp))
    if w != exp: warn.append('write order %s %s %s' % (path, w, exp))
    if s != exp: warn.append('size order %s %s %s' % (path, s, exp))
    vm = {}
    for vmatch in re.finditer(r'^func %s(Lowest|Highest)Supported(Flex)?Version\(\) int16 \{\s*return (-?\d+)' % name, src, re.M):
        vm[vmatch.group(1) + (vmatch.group(2) or '')] = int(vmatch.group(3))
    ak = re.search(r'^func \(o \*%s\) ApiKey\(\) int16 \{\s*return (-?\d+)' % name, src, re.M)
    structs[(pkgdir, name)] = dict(fields=fields, imports=imports, vm=vm, apikey=int(ak.group(1)) if ak else None,
                                   path=os.path.relpath(path, REPO))

def main():
    for root, dirs, files in sorted(os.walk(BASE)):
        for f in sorted(files):
            if f.endswith('.go') and not f.endswith('_test.go') and f != 'requests.go':
                parse(os.path.join(root, f))
    PR = {'bool': '.bool', 'int8': '.int 1', 'int16': '.int 2', 'int32': '.int 4', 'int64': '.int 8', 'uint16': '.u16',
          'float64': '.f64', 'fields.UUID': '.uuid', 'fields.NullableString': '.str', '[]byte': '.bytes',
          'fields.RecordBatches': '.records'}
    out = []
    done = {}
    def lname(key):
        return 's_' + key[0].replace('/', '_').replace('.', '') + '_' + key[1]
    def ctx(f):
        parts = ['lo := %d' % f['lo'], 'hi := %d' % f['hi'], 'flo := %d' % f['flo'], 'fhi := %d' % f['fhi'],
                 'nlo := %d' % f['nlo'], 'nhi := %d' % f['nhi']]
        if f['tag'] is not None:
            parts += ['tag := some %d' % f['tag'], 'tlo := %d' % f['tlo'], 'thi := %d' % f['thi']]
        return '{ ' + ', '.join(parts) + ' }'
    def emit(key):
        if key in done: return
        st = structs[key]
        lines = []
        for f in st['fields']:
            t = f['typ']
            ig = 'false' if f['checked'] else 'true'
            if not f['checked'] and f['lo'] <= 0: ig = 'false'   # irrelevant: lo <= 0 is never checked
            if t in PR:
                lines.append('  .prim %s %s (%s) %s (   -- %s' % (ctx(f), ig, PR[t], f['dflt'], f['name'])); continue
            arr = t.startswith('[]')
            el = t[2:] if arr else t
            if arr and el in PR:
                lines.append('  .arr %s %s (%s) (   -- %s' % (ctx(f), ig, PR[el], f['name'])); continue
            if '.' in el:
                al, n = el.split('.')
                k = (st['imports'][al], n)
            else:
                k = (key[0], el)
            emit(k)
            sub = structs[k]
            lines.append('  .%s %s %s (%d) (%d) %s (   -- %s' % ('arrS' if arr else 'struct', ctx(f), ig,
                         sub['vm']['LowestFlex'], sub['vm']['HighestFlex'], lname(k), f['name']))
        out.append('/-- %s `%s` -/' % (st['path'], key[1]))
        out.append('def %s : Sch :=' % lname(key))
        out.extend(lines)
        out.append('  .nil' + ')' * len(lines))
        out.append('')
        done[key] = True
    tops = []
    for key, st in sorted(structs.items()):
        if st['apikey'] is not None or key[1] == 'Header':
            emit(key); tops.append(key)
    for key in sorted(structs):
        if key not in done: warn.append('unreachable struct %s' % (key,))
    hdr = ['import Verif.Kafka.Schema',
           '/- Generated by tools/extract_messages.py from components/kafka-protocol-go/pkg/protocol/messages. Do not edit. -/',
           'namespace Verif.Kafka.Gen', 'open Verif.Kafka', '',
           '/-- one advertised message: api key, request or response, advertised versions, the struct -/',
           'structure Entry where', '  apiKey : Int', '  isRequest : Bool', '  lo : Int', '  hi : Int', '  msg : Msg', '']
    ents = {True: [], False: []}
    for key in tops:
        st = structs[key]
        if key[1] == 'Header':
            out.append('/-- %s; versions %s-%s -/' % (st['path'], st['vm'].get('Lowest'), st['vm'].get('Highest')))
            out.append('def %s : Msg := ⟨%d, %d, %s⟩' % ('m_' + key[0] + '_Header', st['vm']['LowestFlex'], st['vm']['HighestFlex'], lname(key)))
            out.append('')
            continue
        isreq = key[1] == 'Request'
        vm = st['vm']
        ents[isreq].append('  ⟨%d, %s, %d, %d, ⟨%d, %d, %s⟩⟩' % (st['apikey'], 'true' if isreq else 'false', vm['Lowest'], vm['Highest'], vm['LowestFlex'], vm['HighestFlex'], lname(key)))
        out.append('/-- %s -/' % st['path'])
        out.append('def e_%s_%s : Entry := %s\n' % (key[0], key[1], ents[isreq][-1].strip()))
    out.append('/-- every request struct -/')
    out.append('def requests : List Entry := [\n' + ',\n'.join(ents[True]) + ']\n')
    out.append('/-- every response struct -/')
    out.append('def responses : List Entry := [\n' + ',\n'.join(ents[False]) + ']\n')
    out.append('end Verif.Kafka.Gen')
    os.makedirs(os.path.dirname(OUT), exist_ok=True)
    open(OUT, 'w').write('\n'.join(hdr + out) + '\n')
    # accessor names, nested, in the order of `requests` and `responses`
    def names(key):
        st = structs[key]; o = ''
        for f in st['fields']:
            t = f['typ']; el = t[2:] if t.startswith('[]') else t
            if t in PR or el in PR: sub = '.nil'
            else:
                k = (st['imports'][el.split('.')[0]], el.split('.')[1]) if '.' in el else (key[0], el)
                sub = names(k)
            o += '(.cons "%s".toList %s\n  ' % (f['prop'], sub)
        return o + '.nil' + ')' * len(st['fields'])
    no = ['import Verif.Kafka.Generator',
          '/- Generated by tools/extract_messages.py from components/kafka-protocol-go/pkg/protocol/messages: the names of the',
          'accessor methods of every message, with those of its structures. Do not edit. -/',
          'namespace Verif.Kafka.Gen', 'open Verif.Kafka', '']
    lists = {True: [], False: [], None: []}
    for key in tops:
        nm = 'n_%s_%s' % (key[0], key[1])
        no += ['/-- %s -/' % structs[key]['path'], 'def %s : NT :=\n  %s' % (nm, names(key)), '']
        lists[None if key[1] == 'Header' else key[1] == 'Request'].append(nm)
    for k, n in ((True, 'requestNames'), (False, 'responseNames'), (None, 'headerNames')):
        no += ['/-- in the order of `requests`, `responses`, and the request and response headers -/', 'def %s : List NT := [\n  %s]' % (n, ', '.join(lists[k])), '']
    no.append('end Verif.Kafka.Gen')
    open(OUT.replace('Messages', 'Names'), 'w').write('\n'.join(no) + '\n')
    print('structs', len(structs), 'requests', len(ents[True]), 'responses', len(ents[False]))
    for w in warn: print('WARN', w)
main()
