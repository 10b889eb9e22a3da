#!/usr/bin/env python3
"""Refresh the generated parts of DESIGN.md: the table of theorems per property and the list of violations.
Everything above the line `<!-- generated -->` is written by hand and kept."""
import glob, json, os, re
root = os.path.abspath(os.path.join(os.path.dirname(os.path.abspath(__file__)), '..'))
docs, where = {}, {}
for f in sorted(glob.glob(root + '/lean/Verif/Props/*.lean')):
    s = open(f).read()
    for m in re.finditer(r'^theorem (C\d\d\d?_?\w*)', s, re.M):
        i = s.rfind('/--', 0, m.start()); j = s.find('-/', i)
        docs[m.group(1)] = ' '.join(s[i + 3:j].split()) if i >= 0 else ''
        where[m.group(1)] = os.path.basename(f)
props = [json.loads(l) for l in open(root + '/properties.jsonl')]
status = {c['property']: c for c in json.load(open(root + '/MANIFEST.json'))['claims']}
out = ['<!-- generated -->', '', '## Theorems per property', '',
       'Written by `tools/gen_design.py`. A theorem named `*_partial` proves part of the property (its comment says what is missing);',
       'one named `*_refuted` proves that the code violates it.', '',
       '| id | property | status | file | theorems |', '|---|---|---|---|---|']
for p in props:
    mine = [t for t in docs if t.split('_')[0] == p['id']]
    files = sorted({where[t] for t in mine})
    out.append('| %s | %s | %s | %s | %s |' % (p['id'], p['title'].replace('|', '\\|'), status[p['id']]['status'], ', '.join(files), ', '.join('`%s`' % t for t in mine)))
out += ['', '## Violations found', '', 'Each is proved with a concrete witness by the theorem named.', '']
for p in props:
    for t in docs:
        if t.split('_')[0] == p['id'] and t.endswith('_refuted'):
            d = re.sub(r'\*\*C\d\d[^*]*\*\*\s*:?\s*(is violated)?:?', '', docs[t]).strip()
            d = re.split(r'\s(?=\*\*|Missing from)', d)[0]
            d = d.lstrip('. ')
            d = d[:1].upper() + d[1:]
            out.append('* **%s** `%s`: %s' % (p['id'], t, d))
path = root + '/DESIGN.md'
src = open(path).read()
open(path, 'w').write(src.split('<!-- generated -->')[0].rstrip() + '\n\n' + '\n'.join(out) + '\n')
print(sum(t.endswith('_refuted') for t in docs), 'violations')
