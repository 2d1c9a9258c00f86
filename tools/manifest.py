#!/usr/bin/env python3
"""Regenerate MANIFEST.json from the theorem names Cnn_... in lean/Verif/Props and tools/notes.json."""
import glob, json, re
root = __file__.rsplit('/tools/', 1)[0] if '/tools/' in __file__ else '..'
notes = json.load(open(root + '/tools/notes.json'))
thms = {}
for f in sorted(glob.glob(root + '/lean/Verif/Props/*.lean')):
    s = open(f).read()
    ns = re.search(r'^namespace (\S+)', s, re.M).group(1)
    for m in re.finditer(r'^theorem (C\d\d\d?)_(\S+)', s, re.M):
        thms.setdefault(m.group(1), []).append(f'{ns}.{m.group(1)}_{m.group(2)}')
claims = []
for l in open(root + '/properties.jsonl'):
    i = json.loads(l)['id']
    t = thms.get(i, [])
    n = notes.get(i, {})
    if not t and n.get('status') != 'not_applicable':
        print('no theorem yet:', i)
        continue
    st = n.get('status')
    if st is None:
        st = 'partial' if (not t or any(x.endswith('_partial') for x in t)) else 'proved'
    claims.append(dict(property=i, status=st if t or st == 'not_applicable' else 'partial', theorems=t,
                       note=n.get('note', '' if t else 'not yet proved')))
json.dump({'claims': claims}, open(root + '/MANIFEST.json', 'w'), indent=1)
print(sum(1 for c in claims if c['theorems']), 'of', len(claims), 'with theorems;',
      sum(len(c['theorems']) for c in claims), 'theorems;',
      [c['property'] for c in claims if c['status'] == 'partial'])
extra = set(thms) - {c['property'] for c in claims}
print('without property:', extra)
