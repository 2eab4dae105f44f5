"""List the axioms of every theorem of the manifest into AXIOMS.txt (needs a built project)."""
import json, re, subprocess
ths = [t for c in json.load(open('/verif/MANIFEST.json'))['claims'] for t in c['theorems']]
open('/tmp/Ax.lean', 'w').write('import Verif\n' + '\n'.join('#print axioms ' + t for t in ths) + '\n')
t = subprocess.run(['lake', 'env', 'lean', '/tmp/Ax.lean'], cwd='/verif/lean', capture_output=True, text=True).stdout
out = []
for m in re.finditer(r"'(Verif\.\S+)' (?:depends on axioms: \[([^\]]*)\]|does not depend on any axioms)", t):
    out.append(m.group(1) + ': ' + (re.sub(r'\s+', ' ', m.group(2)) if m.group(2) else 'none'))
assert len(out) == len(ths), (len(out), len(ths))
open('/verif/AXIOMS.txt', 'w').write('\n'.join(out) + '\n')
print(len(out), {x.split(': ')[1] for x in out})
