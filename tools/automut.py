"""Mechanical wrong programs: python3 automut.py SEED COUNT [FILE...]

Generates one-token edits of the definitions in Verif/Model (negated conditions, swapped constants,
swapped or dropped operands, other exceptions), builds all theorems in a scratch copy outside /verif and
stops at the first error. Results go to /tmp/automut.jsonl; survivors are to be examined by hand."""
import json, os, random, re, shutil, subprocess, sys, time
src, dst = '/verif/lean', '/tmp/automut'
random.seed(int(sys.argv[1]))
count = int(sys.argv[2])
files = sys.argv[3:] or sorted(f for f in os.listdir(src + '/Verif/Model') if f.endswith('.lean'))
SWAP = [('true', 'false'), ('&&', '||'), ('==', '!='), ('∧', '∨'), ('.permit', '.deny'), ('.notApplicable', '.indeterminate'),
        ('some', 'none'), ('.typeError', '.valueError'), ('.attributeError', '.typeError'), ('.keyError', '.typeError'),
        ('.nameError', '.typeError'), ('.importError', '.attributeError'), ('.xacmlContextTypeError', '.xacmlContextError'),
        ('.missingAttributeError', '.xacmlContextError'), ('.unsupportedFunctionError', '.unsupportedStdFunctionError'),
        ('.xmlParseError', '.typeError'), ('.notImplementedError', '.typeError'), ('.any', '.all'), ('.isEmpty', '.isEmpty.not'),
        ('takeWhile', 'dropWhile'), ('.head?', '.getLast?'), ('.reverse', ''), ('filter', 'filterMap')]
def muts_of(line):
    out = []
    for a, b in SWAP:
        for x, y in ((a, b), (b, a)):
            if not x: continue
            pat = re.escape(x) if not x[0].isalpha() else r'(?<![\w.])' + re.escape(x)
            if x[-1].isalpha(): pat += r'(?!\w)'
            for g in re.finditer(pat, line):
                out.append((line[:g.start()] + y + line[g.end():], '%s for %s' % (y or 'nothing', x)))
    for g in re.finditer(r'if (?!let|h )([^:]*?) then', line):
        out.append((line[:g.start()] + 'if ¬ (' + g.group(1) + ') then' + line[g.end():], 'condition negated'))
    for g in re.finditer(r'(\S+) \+\+ (\S+)', line):
        a, b = g.group(1), g.group(2)
        if a.count('(') == a.count(')') and b.count('(') == b.count(')'):
            out.append((line[:g.start()] + b + ' ++ ' + a + line[g.end():], '++ swapped'))
            out.append((line[:g.start()] + a + line[g.end():], 'second operand of ++ dropped'))
    for g in re.finditer(r'(?<=[\s(])(\w+) :: (\w+)', line):
        if '=>' in line[g.end():]: continue
        out.append((line[:g.start()] + g.group(2) + line[g.end():], 'element not added'))
    for g in re.finditer(r'(?<![\w.])(\d+)(?![\w.])', line):
        out.append((line[:g.start()] + str(int(g.group(1)) + 1) + line[g.end():], '%s for %s' % (int(g.group(1)) + 1, g.group(1))))
    for g in re.finditer(r'"([^"]+)"', line):
        s = g.group(1)
        out.append((line[:g.start()] + '"' + s[:-1] + '"' + line[g.end():], 'string %r cut' % s))
    g = re.match(r'(\s*\| .*=> )(.*)$', line)
    return [(l, d) for l, d in out if l != line]
cands = []
for f in files:
    lines = open(src + '/Verif/Model/' + f).read().split('\n')
    incomment, name, kind = False, None, None
    arms = []
    for i, l in enumerate(lines):
        if l.lstrip().startswith('/-'): incomment = True
        if incomment:
            if '-/' in l: incomment = False
            continue
        g = re.match(r'\s*(?:private |@\[\w+\] )*(def|theorem|instance|structure|inductive|abbrev|class|mutual|example)\b\s*(\S*)', l)
        if g: kind, name = g.group(1), g.group(2)
        if name in ('stdFunctionNames', 'implementedFunctions'): continue
        if kind not in ('def', 'instance') or l.lstrip().startswith('--') or l.startswith('termination_by') or l.startswith('decreasing'): continue
        body = l
        if g:
            k = l.find(':=')
            if k < 0: continue
            for m, d in muts_of(l[k:]): cands.append((f, i, name, l, l[:k] + m, d))
        else:
            for m, d in muts_of(l): cands.append((f, i, name, l, m, d))
            a = re.match(r'(\s*\| )(.*)( => )(\S.*)$', l)
            b = re.match(r'(\s*\| )(.*)( => )(\S.*)$', lines[i + 1]) if i + 1 < len(lines) else None
            if a and b and a.group(4) != b.group(4):
                cands.append((f, i, name, l, a.group(1) + a.group(2) + a.group(3) + b.group(4), 'case treated as the next one'))
                cands.append((f, i + 1, name, lines[i + 1], b.group(1) + b.group(2) + b.group(3) + a.group(4), 'case treated as the previous one'))
done = set()
if os.path.exists('/tmp/automut.jsonl'):
    for l in open('/tmp/automut.jsonl'):
        d = json.loads(l); done.add((d['file'], d['old'], d['new']))
cands = [c for c in cands if (c[0], c[3].strip(), c[4].strip()) not in done]
print(len(cands), 'candidates', flush=True)
random.shuffle(cands)
if not os.path.exists('/tmp/automut-pristine'):
    subprocess.run(['cp', '-a', src, '/tmp/automut-pristine'], check=True)
n = 0
for f, i, name, old, new, desc in cands:
    if n >= count: break
    shutil.rmtree(dst, ignore_errors=True)
    subprocess.run(['cp', '-a', '/tmp/automut-pristine', dst], check=True)
    path = dst + '/Verif/Model/' + f
    lines = open(path).read().split('\n')
    if i >= len(lines) or lines[i] != old: print('stale', f, i); continue
    lines[i] = new
    open(path, 'w').write('\n'.join(lines))
    t0 = time.time()
    p = subprocess.Popen(['nice', '-n', '19', 'timeout', '2400', 'lake', 'build'], cwd=dst, stdout=subprocess.PIPE, stderr=subprocess.STDOUT, text=True, start_new_session=True)
    first = None
    for l in p.stdout:
        g = re.match(r'error: (Verif/\S+?\.lean):(\d+):\d+:? ?(.*)', l)
        if g:
            first = (g.group(1), int(g.group(2)), g.group(3)); break
    try: os.killpg(p.pid, 9)
    except ProcessLookupError: pass
    p.wait()
    subprocess.run("pkill -9 -f '/tmp/automut/' ", shell=True)
    if first and first[0].startswith('Verif/Model/'):
        st = 'invalid'
    else:
        st = 'killed' if first else ('survived' if p.returncode == 0 else 'unclear')
        n += 1
    thm = None
    if first:
        for k, l in enumerate(open(dst + '/' + first[0]), 1):
            if k > first[1]: break
            g = re.match(r'\s*(?:private )?(theorem|def|instance|example|inductive|structure)\b\s*(\S*)', l)
            if g: thm = g.group(2) if g.group(1) != 'example' else 'example@%d' % k
    rec = dict(file=f, definition=name, old=old.strip(), new=new.strip(), edit=desc, status=st, first=first and first[0], theorem=thm, secs=round(time.time() - t0))
    if st != 'invalid' or True:
        open('/tmp/automut.jsonl', 'a').write(json.dumps(rec) + '\n')
    print(st, f, name, desc, '|', new.strip()[:90], '|', thm, rec['secs'], flush=True)
