#!/usr/bin/env python3
"""Extracts the two headerVersion switches and the NewRequest/NewResponse switches of the Kafka library into
lean/Verif/Kafka/Gen/Headers.lean. Fails on any statement form it does not know."""
import re, os
REPO = os.environ.get('REPO', '/repo')
P = REPO + '/components/kafka-protocol-go/pkg/'
OUT = os.path.dirname(os.path.dirname(os.path.abspath(__file__))) + '/lean/Verif/Kafka/Gen/Headers.lean'

def func(src, sig):
    i = src.index(sig); d = 0
    for k in range(src.index('{', i), len(src)):
        if src[k] == '{': d += 1
        elif src[k] == '}':
            d -= 1
            if d == 0: return src[i:k+1].split('\n')

def header(path):
    lines = [l.strip() for l in func(open(path).read(), 'func headerVersion(')]
    assert lines[1] == 'switch apiKey {'
    out = []; cur = None; cond = None
    for l in lines[2:]:
        if l == '' or l.startswith('//') : continue
        m = re.match(r'case (\d+):', l)
        if m:
            assert cond is None
            cur = [int(m.group(1)), [], None]; out.append(cur); continue
        if l == 'default:': cur = ['d', [], None]; out.append(cur); continue
        m = re.match(r'if apiVersion (>=|==) (\d+) \{$', l)
        if m: cond = (m.group(1), int(m.group(2))); continue
        m = re.match(r'return (-?\d+)$', l)
        if m:
            if cond: cur[1].append((cond, int(m.group(1))))
            else:
                assert cur[2] is None; cur[2] = int(m.group(1))
            continue
        if l == '}': cond = None; continue
        raise Exception('unknown: ' + l)
    d = out.pop(); assert d == ['d', [], -1], d
    return out

def news(path, sig, ty):
    lines = [l.strip() for l in func(open(path).read(), sig)]
    out = []; key = None
    for l in lines[2:]:
        m = re.match(r'case (\d+):', l)
        if m: key = int(m.group(1)); continue
        if l == 'default:': key = None; continue
        m = re.match(r'return &(\w+)\.%s\{\}, nil$' % ty, l)
        if m: out.append((key, m.group(1))); continue
        if l == '}' or l == '': continue
        assert key is None and l.startswith('return nil, '), l
    return out

def main():
    o = ['''import Verif.Kafka.Gen.Messages
/- Generated by tools/extract_headers.py from components/kafka-protocol-go/pkg/{request,response}/header.go and
pkg/protocol/messages/requests.go. Do not edit. -/
namespace Verif.Kafka.Gen
open Verif Verif.Kafka

/-- one `case` of a headerVersion switch: early returns `if apiVersion >= n` (`ge`) / `== n`, then the final return -/
inductive HCond where | ge (n : Int) | eq (n : Int)
def HCond.holds : HCond → Int → Bool
  | .ge n, v => decide (n ≤ v)
  | .eq n, v => decide (v = n)
structure HCase where
  key : Int
  early : List (HCond × Int)
  dflt : Int

/-- the switch: the case of the key, its first early return that applies; −1 for an unknown key -/
def hswitch (t : List HCase) (k v : Int) : Int :=
  match t.find? (fun c => c.key == k) with
  | none => -1
  | some c => match c.early.find? (fun p => p.1.holds v) with
    | some p => p.2
    | none => c.dflt
''']
    for n in ('request', 'response'):
        path = P + n + '/header.go'
        t = header(path)
        o.append('/-- components/kafka-protocol-go/pkg/%s/header.go:20-%d -/\ndef %sHeaderTable : List HCase := [' % (n, len(open(path).read().split('\n'))-1, n))
        rows = []
        for k, e, d in t:
            es = ', '.join('(.%s %d, %d)' % ('ge' if c[0] == '>=' else 'eq', c[1], r) for c, r in e)
            rows.append('  ⟨%d, [%s], %d⟩' % (k, es, d))
        o.append(',\n'.join(rows) + ']\n')
    for n, f in (('request', 'NewRequest'), ('response', 'NewResponse')):
        path = P + 'protocol/messages/%ss.go' % n
        if not os.path.exists(path): path = P + 'protocol/messages/requests.go'
        src = open(path).read()
        ln = src[:src.index('func %s(' % f)].count('\n') + 1
        t = news(path, 'func %s(' % f, n.capitalize())
        o.append('/-- components/kafka-protocol-go/%s:%d `%s`: the struct created for each key -/\ndef %sTable : List (Int × Entry) := [' % (path.split('kafka-protocol-go/')[1], ln, f, f[0].lower()+f[1:]))
        o.append(',\n'.join('  (%d, e_%s_%s)' % (k, p, n.capitalize()) for k, p in t) + ']\n')
    o.append('end Verif.Kafka.Gen\n')
    open(OUT, 'w').write('\n'.join(o))
main()
