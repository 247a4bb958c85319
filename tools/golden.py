#!/usr/bin/env python3
"""Runs the model (Verif/Check/Main.lean) on the SQL files of the test suite and compares trees and
formatted text with the golden files of the project.  Usage: golden.py [-v]"""
import glob, json, os, subprocess, sys
sys.path.insert(0, os.path.dirname(os.path.abspath(__file__)))
import gosrc
ROOT = os.path.dirname(os.path.dirname(os.path.abspath(__file__)))
T = '/repo/parser/testdata/'
ST = {t: f for t, (f, a, b) in gosrc.structs().items()}
def val(v, ty=None):
    if isinstance(v, dict): return bytes.fromhex(v['s']).decode('utf-8', 'replace') if 's' in v else [val(x) for x in v['l']]
    if isinstance(v, list): return {n: val(x, t) for (n, t), x in zip(ST[v[0]], v[1:])}
    return v
def hx(l): return [bytes.fromhex(x) if x is not None else None for x in l]
files = sorted(f for d in ('dml', 'ddl', 'query', 'basic') for f in glob.glob(T + d + '/*.sql'))
out = []
for i in range(0, len(files), 60):
    r = subprocess.run(['lake', 'env', 'lean', '--run', 'Verif/Check/Main.lean'] + files[i:i+60], cwd=ROOT + '/lean', capture_output=True, text=True)
    out += r.stdout.splitlines()
    if r.stderr: print(r.stderr[:2000])
ok = [0, 0, 0]; bad = 0; seen = 0
for l in out:
    d = json.loads(l); seen += 1
    f = d['file']; dr, b = os.path.split(f)
    if 'format' not in d: print('NOT PARSED', f, {k: v for k, v in d.items() if k != 'file'}); bad += 1; continue
    g = json.load(open(dr + '/output/' + b + '.golden.json'))
    a = val(d['ast'])
    if a == g: ok[0] += 1
    else:
        bad += 1; print('TREE', f)
        if '-v' in sys.argv:
            def diff(x, y, p=''):
                if type(x) != type(y): print('   ', p, 'model', str(x)[:100], 'golden', str(y)[:100]); return
                if isinstance(x, dict):
                    for k in sorted(set(x) | set(y)): diff(x.get(k, 'MISSING'), y.get(k, 'MISSING'), p + '.' + k)
                elif isinstance(x, list):
                    if len(x) != len(y): print('   ', p, 'lengths', len(x), len(y))
                    for i, (u, v) in enumerate(zip(x, y)): diff(u, v, p + '[%d]' % i)
                elif x != y: print('   ', p, 'model', x, 'golden', y)
            diff(a, g)
    src = open(f, 'rb').read()
    for k, (key, dd, head) in enumerate([('format', '/format/', b'-- Format SQL:\n'), ('beautify', '/format/beautify/', b'-- Beautify SQL:\n')]):
        p = dr + dd + b
        if not os.path.exists(p): print('no golden', p); continue
        want = open(p, 'rb').read()
        got = b'-- Origin SQL:\n' + src + b'\n\n' + head + b''.join((x if x is not None else b'PANIC') + b';\n' for x in hx(d[key]))
        if want == got: ok[k + 1] += 1
        else:
            bad += 1; print(key, f)
            if '-v' in sys.argv: print(got[-400:], want[-400:])
print('%d files, trees equal %d, formatted equal %d, beautified equal %d, differences %d' % (seen, ok[0], ok[1], ok[2], bad))
