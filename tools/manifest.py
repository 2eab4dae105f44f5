import re,json,glob,os
notes=json.load(open('/verif/tools/notes.json'))
props=[json.loads(l)['id'] for l in open('/verif/properties.jsonl')]
th={p:[] for p in props}
for f in sorted(glob.glob('/verif/lean/Verif/**/*.lean',recursive=True)):
    ns=[]
    for line in open(f):
        m=re.match(r'namespace (\S+)',line)
        if m: ns.append(m.group(1))
        m=re.match(r'end (\S+)',line)
        if m and ns and ns[-1]==m.group(1): ns.pop()
        m=re.match(r'(?:private )?theorem (C\d\d+_\S+)',line)
        if m:
            p=m.group(1).split('_')[0]
            th[p].append('.'.join(ns+[m.group(1)]))
out=[]
for p in props:
    t=th[p]
    n=notes.get(p,{})
    st=n.get('status') or ('partial' if any('_partial' in x or '_violated' in x for x in t) else 'proved')
    if not t and st!='not_applicable':
        st='partial'; 
        continue
    out.append(dict(property=p,status=st,theorems=t,note=n.get('note','')))
json.dump(dict(claims=out),open('/verif/MANIFEST.json','w'),indent=1,ensure_ascii=False)
print(len(out),'claims', sum(len(o['theorems']) for o in out),'theorems; missing',[p for p in props if p not in [o['property'] for o in out]])
from collections import Counter
print(Counter(o['status'] for o in out))
