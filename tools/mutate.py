"""Run seeded-bug experiments: python3 mutate.py FILE [worker nworkers]

FILE is a Python file defining MUTS, a list of dicts with file, old, new, definition, edit, claim,
breaks (property ids) and optionally targets and also (further edits, triples of file, old, new).  Each mutant is built in a scratch copy outside /verif.
Results are appended to /tmp/mutres-<worker>.jsonl."""
import json, os, re, shutil, subprocess, sys
src = '/verif/lean'
w, n = (int(sys.argv[2]), int(sys.argv[3])) if len(sys.argv) > 3 else (0, 1)
ns = {}
exec(open(sys.argv[1]).read(), ns)
muts = [m for i, m in enumerate(ns['MUTS']) if i % n == w]
dst = '/tmp/mut%d' % w
shutil.rmtree(dst, ignore_errors=True)
subprocess.run(['cp', '-a', src, dst], check=True)
ALL = ['Verif.Props.' + f[:-5] for f in sorted(os.listdir(src + '/Verif/Props')) if f.endswith('.lean')]

def enclosing(path, line):
    name = None
    for i, l in enumerate(open(path), 1):
        if i > line: break
        g = re.match(r'\s*(?:private )?(?:theorem|def|instance|example|inductive|structure)\b\s*(\S*)', l)
        if g:
            name = g.group(1) if not l.lstrip().startswith('example') else 'example@%d' % i
    return name

for m in muts:
    path = dst + '/Verif/' + m['file']
    orig = open(path).read()
    if orig.count(m['old']) != 1:
        print('BAD MUTATION', m['definition'], m['edit'], orig.count(m['old'])); continue
    open(path, 'w').write(orig.replace(m['old'], m['new']))
    more = []
    for f2, o2, n2 in m.get('also', []):
        p2 = dst + '/Verif/' + f2
        t2 = open(p2).read()
        assert t2.count(o2) == 1, (f2, o2, t2.count(o2))
        more.append((p2, t2))
        open(p2, 'w').write(t2.replace(o2, n2))
    targets = m.get('targets') or ns.get('TARGETS') or ALL
    # the FunctionTable check is slow: skip it unless asked for
    if not m.get('targets') and not ns.get('TARGETS'):
        targets = [t for t in targets if not t.endswith('FunctionMap')]
    r = subprocess.run(['timeout', '1500', 'lake', 'build'] + targets, cwd=dst, capture_output=True, text=True)
    out = r.stdout + r.stderr
    fails = []
    for g in re.finditer(r'error: (Verif/\S+?\.lean):(\d+):\d+', out):
        x = enclosing(dst + '/' + g.group(1), int(g.group(2)))
        k = '%s' % x if 'Props' in g.group(1) else '%s:%s' % (g.group(1)[6:-5], x)
        if k not in fails: fails.append(k)
    built = []
    for t in targets:
        q = subprocess.run(['lake', 'build', '--no-build', t], cwd=dst, capture_output=True, text=True)
        if q.returncode == 0: built.append(t.split('.')[-1])
    blocked = [t.split('.')[-1] for t in targets if t.split('.')[-1] not in built]
    rec = dict(definition=m['definition'], edit=m['edit'], claim=m['claim'], breaks=m.get('breaks', []),
               failed=fails, modules_failing=blocked, survived=(r.returncode == 0))
    open('/tmp/mutres-%d.jsonl' % w, 'a').write(json.dumps(rec) + '\n')
    print(('SURVIVED ' if r.returncode == 0 else 'killed ') + m['definition'], m['edit'], fails[:8], blocked, flush=True)
    open(path, 'w').write(orig)
    for p2, t2 in more: open(p2, 'w').write(t2)
