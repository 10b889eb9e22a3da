#!/usr/bin/env python3
"""Write MANIFEST.json from the theorem names in lean/Verif/Props and tools/notes.json; with --axioms also write
AXIOMS.md (needs a finished lake build)."""
import json, os, re, subprocess, sys, glob
root = os.path.join(os.path.dirname(os.path.abspath(__file__)), '..')
thms = []
for f in sorted(glob.glob(root + '/lean/Verif/Props/*.lean')):
    ns = []; depth = 0
    for line in open(f):
        # skip block comments
        starts, ends = line.count('/-'), line.count('-/')
        if depth == 0:
            m = re.match(r'namespace (\S+)', line)
            if m: ns.append(m.group(1))
            m = re.match(r'end (\S+)', line)
            if m and ns and ns[-1] == m.group(1): ns.pop()
            m = re.match(r'(?:@\[[^\]]*\]\s*)?theorem (\S+)', line)
            if m and re.match(r'C\d\d', m.group(1)): thms.append(('.'.join(ns + [m.group(1)]), m.group(1), os.path.basename(f)))
        depth += starts - ends
notes = json.load(open(root + '/tools/notes.json'))
props = [json.loads(l)['id'] for l in open(root + '/properties.jsonl')]
claims = []
for p in props:
    mine = [t for t in thms if t[1].startswith(p + '_')]
    bad = any(t[1].endswith('_partial') or t[1].endswith('_refuted') for t in mine)
    status = 'not_applicable' if not mine else ('partial' if bad else 'proved')
    n = notes.get(p, {})
    if isinstance(n, str): n = {'note': n}
    status = n.get('status', status)
    claims.append({'property': p, 'status': status, 'theorems': [t[0] for t in mine],
                   'note': n.get('note', '' if mine else 'not yet modelled')})
known = set(props)
for t in thms:
    if t[1].split('_')[0] not in known: print('theorem without property:', t[0])
for p in notes:
    if p not in known: print('note without property:', p)
for c in claims:
    if not c['theorems']: print('no theorem:', c['property'])
json.dump({'claims': claims}, open(root + '/MANIFEST.json', 'w'), indent=1, ensure_ascii=False)
print(len(thms), 'theorems;', {s: sum(c['status'] == s for c in claims) for s in ('proved', 'partial', 'not_applicable')})
if '--axioms' in sys.argv:
    open('/tmp/ax.lean', 'w').write('import Verif\n' + ''.join('#print axioms %s\n' % t[0] for t in thms))
    out = subprocess.run(['lake', 'env', 'lean', '/tmp/ax.lean'], cwd=root + '/lean', capture_output=True, text=True)
    txt = out.stdout.replace('\n  ', ' ').replace('\n ', ' ')
    rows = []
    for line in txt.splitlines():
        m = re.match(r"'(.*?)' depends on axioms: \[(.*)\]", line)
        if m: rows.append((m.group(1), m.group(2))); continue
        m = re.match(r"'(.*?)' does not depend on any axioms", line)
        if m: rows.append((m.group(1), 'none')); continue
        print('??', line)
    allowed = {'propext', 'Classical.choice', 'Quot.sound', 'none'}
    for n, a in rows:
        if not set(x.strip() for x in a.split(',')) <= allowed: print('BAD AXIOM', n, a)
    with open(root + '/AXIOMS.md', 'w') as f:
        f.write('# Axioms each theorem depends on\n\nOutput of `#print axioms` for every property theorem (written by `tools/gen_manifest.py --axioms`).\n\n| theorem | axioms |\n|---|---|\n')
        for n, a in rows: f.write('| `%s` | %s |\n' % (n, a))
    print(len(rows), 'axiom rows')
