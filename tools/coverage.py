"""Functions of /repo whose lines no definition of the model cites."""
import ast, re, glob, os, collections
cites = collections.defaultdict(list)
text = '\n'.join(open(f).read() for f in glob.glob('/verif/lean/Verif/**/*.lean', recursive=True))
for m in re.finditer(r'([\w/]+\.pyx?)`?:\s*((?:\d+(?:-\d+)?(?:,\s*)?)+)', text):
    for r in re.findall(r'(\d+)(?:-(\d+))?', m.group(2)):
        a = int(r[0]); b = int(r[1] or a)
        cites[m.group(1).split('quantas/')[-1]].append((a, b))
files = sorted(glob.glob('/repo/quantas/**/*.py', recursive=True) + glob.glob('/repo/quantas/**/*.pyx', recursive=True))
tot = cov = 0
for f in files:
    rel = f[len('/repo/quantas/'):]
    rs = [r for k, v in cites.items() if rel == k or rel.endswith('/' + k) for r in v]
    src = open(f).read()
    funcs = []
    if f.endswith('.py'):
        for n in ast.walk(ast.parse(src)):
            if isinstance(n, (ast.FunctionDef,)):
                funcs.append((n.name, n.lineno, n.end_lineno))
    else:
        ls = src.split('\n'); st = [(i + 1, re.search(r'(\w+)\(', l).group(1)) for i, l in enumerate(ls) if re.match(r'(cp?def|def) .*\(', l)]
        for (i, name), nxt in zip(st, [s[0] for s in st[1:]] + [len(ls) + 1]):
            funcs.append((name, i, nxt - 1))
    miss = []
    for name, a, b in sorted(funcs, key=lambda t: t[1]):
        tot += 1
        if any(x <= b and y >= a for x, y in rs): cov += 1
        else: miss.append(f'{name}:{a}-{b}')
    if miss: print(rel, '|', ' '.join(miss))
print(cov, 'of', tot)
