#!/usr/bin/env python3
"""Applies model mutations in a scratch copy, rebuilds, and logs which theorems fail.

usage: mutate.py MUTATIONS.json   (list of {file, definition, old, new, claim, tightened?, targets?})
Appends one line per mutation to seeded/LOG.jsonl.  Failing declarations are found from the
error lines; property theorems in modules that could not be built any more are reported as
"blocked" (their proofs import a failing lemma)."""
import json, os, re, shutil, subprocess, sys
root = os.path.dirname(os.path.dirname(os.path.abspath(__file__)))
scratch = '/tmp/mut'
muts = json.load(open(sys.argv[1]))
subprocess.run(['rsync', '-a', '--delete', root + '/lean/', scratch + '/'], check=False) if shutil.which('rsync') else None
if not shutil.which('rsync'):
    shutil.rmtree(scratch, ignore_errors=True)
    subprocess.run(['cp', '-a', root + '/lean', scratch], check=True)
DECL = re.compile(r'^(?:@\[[^\]]*\]\s*)?(?:private |protected |noncomputable )*(theorem|example|def|lemma|instance|inductive)\b\s*(\S*)')
def decl_at(f, line):
    name = '?'
    for i, l in enumerate(open(os.path.join(scratch, f)), 1):
        if i > line: break
        m = DECL.match(l)
        if m: name = m.group(2) if m.group(1) != 'example' else 'example after ' + name.replace('example after ', '')
    return name
for m in muts:
    path = os.path.join(scratch, m['file'])
    orig = open(path).read()
    n = orig.count(m['old'])
    if n != 1:
        print('SKIP (%d matches): %s' % (n, m['old'])); continue
    open(path, 'w').write(orig.replace(m['old'], m['new']))
    r = subprocess.run(['nice', 'lake', 'build', '--log-level=error'] + m.get('targets', []), cwd=scratch, capture_output=True, text=True)
    out = r.stdout + r.stderr
    failed, bad = [], set()
    for e in re.finditer(r'error: (Verif/\S+?\.lean):(\d+):', out):
        d = decl_at(e.group(1), int(e.group(2)))
        bad.add(e.group(1))
        if d not in failed: failed.append(d)
    blocked = []
    if r.returncode:
        for mod in sorted(os.listdir(scratch + '/Verif/Props')):
            src = open(scratch + '/Verif/Props/' + mod).read()
            todo, seen = re.findall(r'^import (Verif\S+)', src, re.M), set()
            while todo:
                x = todo.pop()
                if x in seen: continue
                seen.add(x)
                p = x.replace('.', '/') + '.lean'
                if p in bad:
                    blocked.append(mod); break
                todo += re.findall(r'^import (Verif\S+)', open(os.path.join(scratch, p)).read(), re.M)
    rec = {'definition': m['definition'], 'edit': m['old'] + '  =>  ' + m['new'], 'claim': m['claim'],
           'result': 'killed' if r.returncode else 'SURVIVED', 'failed': failed,
           'blocked_modules': blocked, 'tightened': m.get('tightened', [])}
    print(rec['result'], m['definition'], '|', m['new'][:60], '|', failed[:4], flush=True)
    with open(root + '/seeded/LOG.jsonl', 'a') as o:
        o.write(json.dumps(rec, ensure_ascii=False) + '\n')
    open(path, 'w').write(orig)
