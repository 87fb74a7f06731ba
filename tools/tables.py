"""Compare the tables of the model with the text of /repo (parsed, not run).

Checks: the class table of Model/Copying.lean (slots, __getstate__, __setstate__, superclasses), the list of
standard function identifiers, that every string of the model occurs in the source, and that every line range cited
in the model exists. Prints the differences; no output means none.
"""
import ast
import glob
import os
import re
import sys

REPO = '/repo'
MODEL = '/verif/lean/Verif/Model'
bad = []


def comments_removed(t):
    return re.sub(r'--.*', '', re.sub(r'/-.*?-/', '', t, flags=re.S))


# class table
classes = {}
for root, _, files in os.walk(REPO + '/ndg'):
    for f in files:
        if f.endswith('.py'):
            path = os.path.join(root, f)
            for n in ast.walk(ast.parse(open(path).read())):
                if isinstance(n, ast.ClassDef):
                    classes.setdefault(os.path.relpath(path, REPO), []).append(n)


def describe(c):
    slots = None
    get = None
    setstate = False
    for n in c.body:
        if isinstance(n, ast.Assign) and [getattr(t, 'id', '') for t in n.targets] == ['__slots__']:
            v = ast.literal_eval(n.value)
            slots = [v] if isinstance(v, str) else list(v)
        if isinstance(n, ast.FunctionDef) and n.name == '__getstate__':
            get = any(isinstance(x, ast.Call) and getattr(x.func, 'id', '') == 'super' for x in ast.walk(n))
        if isinstance(n, ast.FunctionDef) and n.name == '__setstate__':
            setstate = True
    return slots, get, setstate


text = open(MODEL + '/Copying.lean').read()
found = {}
for m in re.finditer(r'/-- ([^/]*?(?:/[^/]*?)*?)-/\s*def (\w+Def) : ClassDef :=\s*⟨"([^"]*)", (none|some \[[^\]]*\]), (none|some true|some false), (true|false)⟩', text):
    doc, name, cls, slots, get, sets = m.groups()
    doc = doc[doc.rfind('Models:'):]
    slots = None if slots == 'none' else re.findall(r'"([^"]*)"', slots)
    get = None if get == 'none' else get == 'some true'
    here = []
    file = None
    for part in re.finditer(r'([\w/]+\.py)?:?(\d+)-(\d+)', doc):
        if part.group(1):
            p = part.group(1)
            file = p if p.startswith('ndg') else os.path.join(os.path.dirname(file), p)
        a, b = int(part.group(2)), int(part.group(3))
        here += [c for c in classes.get(file, []) if a <= c.lineno <= b]
    if cls == '<type>AttributeValue':
        continue
    here = [c for c in here if cls.startswith('<') or c.name == cls]
    if not here:
        bad.append(f'{name}: no class {cls} at the lines cited')
    for c in here:
        s, g, t = describe(c)
        if (s, g, t) != (slots, get, sets == 'true'):
            bad.append(f'{name}: source has {s} {g} {t}')
        found[name] = [x.attr if isinstance(x, ast.Attribute) else x.id for x in c.bases]
names = {m.group(1): m.group(2) for m in re.finditer(r'def (\w+Def) : ClassDef :=\s*⟨"([^"]*)"', text)}
for m in re.finditer(r'\| \.(\w+) => \[((?:\w+Def(?:, )?)+)\]', text):
    mro = m.group(2).split(', ')
    for a, b in zip(mro, mro[1:]):
        if a in found and names[b] not in found[a]:
            bad.append(f'{a}: superclasses in the source are {found[a]}, not {names[b]}')
    last = mro[-1]
    if last in found and found[last] != ['object'] and last != 'coreBaseDef':
        bad.append(f'{last}: has superclasses {found[last]}')

# function identifiers
std = None
for c in classes['ndg/xacml/core/functions/__init__.py']:
    if c.name == 'XacmlFunctionNames':
        for n in c.body:
            if isinstance(n, ast.Assign) and n.targets[0].id == 'FUNCTION_NAMES':
                std = list(ast.literal_eval(n.value))
t = open(MODEL + '/FunctionMap.lean').read()
body = t[t.index('def stdFunctionNames'):]
model = re.findall(r'"([^"]*)"', body[:body.index(']')])
if model != std:
    bad.append('stdFunctionNames: ' + str(sorted(set(model) ^ set(std))[:5]))

# strings
source = ''.join(open(p).read() for p in glob.glob(REPO + '/ndg/**/*.py', recursive=True))
values = set()
for p in glob.glob(REPO + '/ndg/**/*.py', recursive=True):
    for n in ast.walk(ast.parse(open(p).read())):
        if isinstance(n, ast.Constant) and isinstance(n.value, str):
            values.add(n.value)
prefixes = ['urn:oasis:names:tc:xacml:1.0:status:']
# put together in the source, or from Python's XPath module and the model's own notation
known = ['urn:oasis:names:tc:xacml:2.0:context:schema:os', 'urn:oasis:names:tc:xacml:2.0:policy:schema:os',
         'urn:oasis:names:tc:xacml:1.0:subject-category:access-subject', 'chars%', '{*}*', '{}*', '{*}']
for f in sorted(glob.glob(MODEL + '/*.lean')):
    t = comments_removed(open(f).read()).replace("'\"'", "' '")
    for m in re.finditer(r'"((?:[^"\\]|\\.)*)"', t):
        s = m.group(1)
        if len(s) < 3 or s in source or s in values or s.startswith('<') or s in known:
            continue
        if any(s.startswith(p) and s[len(p):] in source for p in prefixes):
            continue
        mangled = re.match(r'_(\w+?)(__\w+)$', s)
        if mangled and any(c.name == mangled.group(1) and mangled.group(2) in (describe(c)[0] or [])
                           for cs in classes.values() for c in cs):
            continue
        path = re.match(r'ndg\.xacml\.core\.functions\.(v\d)\.(\w+)\.FunctionClassFactory$', s)
        if path and os.path.exists(f'{REPO}/ndg/xacml/core/functions/{path.group(1)}/{path.group(2)}.py'):
            continue
        if s.endswith('reader') and os.path.exists(f'{REPO}/ndg/xacml/parsers/etree/{s}.py'):
            continue
        bad.append(f'{os.path.basename(f)}: {s[:60]!r} is not in the source')

# citations
for f in sorted(glob.glob(MODEL + '/*.lean')):
    for doc in re.findall(r'/--.*?-/', open(f).read(), flags=re.S):
        file = None
        for m in re.finditer(r'([\w/]+\.py)?:(\d+)(?:-(\d+))?', doc):
            if m.group(1):
                p = m.group(1)
                if not p.startswith('ndg'):
                    p = os.path.join(os.path.dirname(file), p) if file else p
                file = p
            if not file:
                continue
            full = os.path.join(REPO, file)
            if not os.path.exists(full):
                hits = [x for x in glob.glob(REPO + '/ndg/**/*.py', recursive=True) if x.endswith('/' + os.path.basename(file))]
                if not hits:
                    bad.append(f'{os.path.basename(f)}: no file {file}')
                    continue
                full = hits[0] if len(hits) == 1 else None
            if full:
                n = len(open(full).read().splitlines())
                if int(m.group(3) or m.group(2)) > n:
                    bad.append(f'{os.path.basename(f)}: {file} has {n} lines, cited {m.group(0)}')

# functions named before a citation lie in the lines cited, except where the comment
# only mentions a function or attribute whose use (or base class) is what is cited
MENTIONS = {('Attributes.lean', 'elem'), ('Containers.lean', 'update'), ('Copying.lean', 'attributes'),
            ('DecisionHeap.lean', '_setValue'), ('Eval.lean', 'mustBePresent')}
for f in sorted(glob.glob(MODEL + '/*.lean')):
    for doc in re.findall(r'/--.*?-/', open(f).read(), flags=re.S):
        m = re.search(r'Models: (ndg/[\w/]+\.py):([\d, -]+)', doc.replace('\n', ' '))
        if not m:
            continue
        ranges = [(int(a), int(b or a)) for a, b in re.findall(r'(\d+)(?:-(\d+))?', m.group(2))]
        defs = {}
        for n in ast.walk(ast.parse(open(os.path.join(REPO, m.group(1))).read())):
            if isinstance(n, ast.FunctionDef):
                defs.setdefault(n.name, []).append((n.lineno, n.end_lineno))
        for name in re.findall(r'`(?:\w+\.)?(\w+)(?:\([^`]*\))?`', doc[:doc.index('Models:')])[:1]:
            if (os.path.basename(f), name) in MENTIONS:
                continue
            if name in defs and not any(a <= hi and lo <= b for lo, hi in defs[name] for a, b in ranges):
                bad.append(f'{os.path.basename(f)}: {name} is at {defs[name]} of {m.group(1)}, cited {m.group(2)}')

if bad:
    print('\n'.join(bad))
sys.exit(1 if bad else 0)
