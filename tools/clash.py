"""List names that are declared in more than one module."""
import glob, re, collections
D = collections.defaultdict(set)
for f in glob.glob('/verif/lean/Verif/**/*.lean', recursive=True):
    ns = []
    for line in open(f):
        m = re.match(r'namespace (\S+)', line)
        if m: ns.append(m.group(1)); continue
        m = re.match(r'end (\S+)', line)
        if m and ns and ns[-1] == m.group(1): ns.pop(); continue
        m = re.match(r'(?:@\[[^\]]*\] *)?(?:noncomputable )?(?:theorem|def|inductive|structure|abbrev|class|instance) +([^\s:({\[]+)', line)
        if m: D['.'.join(ns + [m.group(1)])].add(f)
for n, fs in sorted(D.items()):
    if len(fs) > 1: print(n, [x.split('Verif/')[-1] for x in fs])
raise SystemExit(any(len(fs) > 1 for fs in D.values()))
