"""Regenerate MANIFEST.json from the theorem names in lean/Verif/Props and the notes below."""
import json, re, glob, collections
ths = collections.defaultdict(list)
for f in sorted(glob.glob('lean/Verif/Props/*.lean')):
    ns = []
    for line in open(f):
        if m := re.match(r'namespace (\S+)', line): ns.append(m.group(1))
        elif m := re.match(r'end (\S+)', line):
            if ns and ns[-1] == m.group(1): ns.pop()
        elif m := re.match(r'theorem (C(\d\d+)_\w+)', line):
            ths['C' + m.group(2)].append('.'.join(ns + [m.group(1)]))
notes = json.load(open('tools/notes.json'))
claims = []
for l in open('properties.jsonl'):
    p = json.loads(l)['id']
    t = ths.get(p, [])
    n = notes.get(p, {})
    if not t:
        st = 'not_applicable' if n.get('status') == 'not_applicable' else 'partial'
        claims.append({'property': p, 'status': st, 'theorems': [], 'note': n.get('note', 'not proved yet')})
        continue
    st = n.get('status') or ('partial' if any(x.endswith('_partial') for x in t) else 'proved')
    claims.append({'property': p, 'status': st, 'theorems': t, 'note': n.get('note', '')})
json.dump({'claims': claims}, open('MANIFEST.json', 'w'), indent=1)
print(collections.Counter(c['status'] for c in claims), sum(len(c['theorems']) for c in claims))
