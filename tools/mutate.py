#!/usr/bin/env python3
"""Mutation testing.  usage: mutate.py mutations.json [--log]
Each entry: {"file": model file under lean/Verif, "definition", "old", "new", "claim", optional "tightened": [..],
optional "targets": [modules to build first; all of them are built when those still pass]}.
Copies lean/ to a scratch directory, applies one edit at a time, builds, maps the errors to the enclosing declarations and
restores the file.  With --log appends one line per attempt to seeded/LOG.jsonl."""
import json, os, re, subprocess, sys, time
root = os.path.abspath(os.path.join(os.path.dirname(os.path.abspath(__file__)), '..'))
scratch = os.environ.get('MUT_SCRATCH', '/tmp/mut')
subprocess.run(['rsync', '-a', '--delete', root + '/lean/', scratch + '/'], check=False) if os.path.exists('/usr/bin/rsync') else \
    subprocess.run('mkdir -p %s && cp -a --update %s/lean/. %s/' % (scratch, root, scratch), shell=True, check=True)
subprocess.run(['lake', 'build'], cwd=scratch, capture_output=True)
def decl_at(path, line):
    name = '?'
    for i, l in enumerate(open(path), 1):
        if i > line: break
        m = re.match(r'\s*(?:@\[[^\]]*\]\s*)?(?:private |protected |noncomputable |local )*(theorem|lemma|def|example|instance|inductive|structure)\b\s*([^\s:({\[]*)', l)
        if m: name = m.group(2) or m.group(1)
    return name
for mu in json.load(open(sys.argv[1])):
    path = scratch + '/Verif/' + mu['file']
    src = open(path).read()
    if src.count(mu['old']) != 1:
        print('!! pattern occurs %d times: %s' % (src.count(mu['old']), mu['old'])); continue
    open(path, 'w').write(src.replace(mu['old'], mu['new']))
    t = time.time()
    r = subprocess.run(['lake', 'build'] + mu.get('targets', []), cwd=scratch, capture_output=True, text=True)
    if mu.get('targets') and r.returncode == 0:
        r = subprocess.run(['lake', 'build'], cwd=scratch, capture_output=True, text=True)
    open(path, 'w').write(src)
    failed, infra = [], []
    for m in re.finditer(r'error: (Verif/\S+?\.lean):(\d+):\d+', r.stdout + r.stderr):
        d = decl_at(scratch + '/' + m.group(1), int(m.group(2)))
        tag = d if m.group(1).startswith('Verif/Props') else m.group(1)[6:-5] + ':' + d
        if m.group(1) == 'Verif/' + mu['file']: tag = 'MODEL:' + d
        if tag not in failed: failed.append(tag)
    if r.returncode != 0 and not failed:  # the checker itself gave up on a module, e.g. out of memory evaluating a false claim
        failed = ['module ' + m for m in re.findall(r'^- (Verif\S*)', r.stdout + r.stderr, re.M)]
    modelerr = [x for x in failed if x.startswith('MODEL')]
    print(('SURVIVED' if not failed else 'MODELERR' if modelerr else 'killed'), mu['definition'], '|', mu['claim'], '|', failed, '%.0fs' % (time.time() - t), flush=True)
    if '--log' in sys.argv and not modelerr:
        with open(root + '/seeded/LOG.jsonl', 'a') as f:
            f.write(json.dumps({'definition': mu['definition'], 'edit': mu['old'] + '  ==>  ' + mu['new'], 'claim': mu['claim'],
                                'failed': failed, 'tightened': mu.get('tightened', [])}, ensure_ascii=False) + '\n')
subprocess.run(['lake', 'build'], cwd=scratch, capture_output=True)
