"""Write DESIGN.md from design_head.md, design_rows.json, notes.json, MANIFEST.json and the citations."""
import json, re, subprocess, glob, collections
D = '/verif/tools/'
head = open(D + 'design_head.md').read()
rows = json.load(open(D + 'design_rows.json'))
plan = '\n'.join('| %s | %s | %s |' % tuple(r) for r in rows)
man = json.load(open('/verif/MANIFEST.json'))['claims']
title = {}
for l in open('/verif/properties.jsonl'):
    p = json.loads(l); title[p['id']] = p['title']
res = []
for c in sorted(man, key=lambda c: int(c['property'][1:])):
    n = c['note'].replace('|', '/')
    res.append('| %s | %s | %s | %s | %s |' % (c['property'], title[c['property']].replace('|', '/'), c['status'],
        len(c['theorems']), n))
cov = subprocess.run(['python3', D + 'coverage.py'], capture_output=True, text=True).stdout.strip().split('\n')
covt = '\n'.join('| %s | %s |' % tuple(x.replace('_', '\\_') for x in l.split(' | ')) for l in cov[:-1])
cites = collections.defaultdict(set)
for f in glob.glob('/verif/lean/Verif/**/*.lean', recursive=True):
    for m in re.finditer(r'([\w/]+\.pyx?)`?:\s*\d', open(f).read()):
        cites[f[len('/verif/lean/'):]].add(m.group(1).split('quantas/')[-1])
mods = '\n'.join('| %s | %s |' % (k, ', '.join(sorted(v)).replace('_', '\\_')) for k, v in sorted(cites.items())
    if 'Spec' not in k and 'Witness' not in k and 'Lemmas' not in k)
out = head.replace('@PLAN@', plan).replace('@RESULTS@', '\n'.join(res)).replace('@UNCOVERED@', covt)
out = out.replace('@COVERED@', cov[-1]).replace('@MODULES@', mods)
open('/verif/DESIGN.md', 'w').write(out)
