"""Try wrong programs: apply each edit of a batch to a scratch copy of the model and rebuild.

usage: mutate.py batch.py
A batch defines M = [(module, definition, old, new, claim), ...]; `old` must occur exactly once
(or be a pair (old, n) meaning the n-th occurrence).  A sixth component lists the theorems tightened
because the same edit survived before.  Results are appended to seeded/LOG.jsonl.
"""
import sys, os, re, json, shutil, subprocess, runpy
SRC, WORK = os.environ.get('MUT_SRC', '/verif/lean'), '/tmp/mut/lean'
LOG = '/verif/seeded/LOG.jsonl'


def decl_at(path, line):
    name, ns = None, []
    for i, l in enumerate(open(path), 1):
        if i > line:
            break
        m = re.match(r'(?:@\[[^\]]*\]\s*)?(?:noncomputable\s+|private\s+)*'
                     r'(theorem|lemma|def|example|instance|structure|abbrev|inductive)\s*(\S*)', l)
        if m:
            name = m.group(2) if m.group(1) != 'example' else 'example'
    return name


def deps():
    """module -> imported Verif modules"""
    d = {}
    for root, _, files in os.walk(WORK + '/Verif'):
        for f in files:
            if f.endswith('.lean'):
                p = os.path.join(root, f)
                mod = p[len(WORK) + 1:-5].replace('/', '.')
                d[mod] = [l.split()[1] for l in open(p) if l.startswith('import Verif.')]
    return d


def main():
    batch = runpy.run_path(sys.argv[1])['M']
    done = set()
    if os.path.exists(LOG):
        done = {(j['definition'], j['edit']) for j in map(json.loads, open(LOG))}
    for module, definition, old, new, claim, *tight in batch:
        n = 0
        if isinstance(old, tuple):
            old, n = old
        edit = '%s  ==>  %s' % (old.strip(), new.strip())
        if tight:
            edit += '  [again, after tightening]'
        full = module + '.' + definition
        if (full, edit) in done:
            continue
        shutil.rmtree('/tmp/mut', ignore_errors=True)
        os.makedirs('/tmp/mut')
        subprocess.run(['cp', '-a', SRC, WORK], check=True)
        path = WORK + '/' + module.replace('.', '/') + '.lean'
        text = open(path).read()
        parts = text.split(old)
        if len(parts) - 1 == 0 or (n == 0 and len(parts) != 2):
            print('NO UNIQUE MATCH', full, repr(old), len(parts) - 1, flush=True)
            continue
        if n:
            text = old.join(parts[:n]) + new + old.join(parts[n:])
        else:
            text = new.join(parts)
        open(path, 'w').write(text)
        out = subprocess.run(['lake', 'build'], cwd=WORK, capture_output=True, text=True)
        out = out.stdout + out.stderr
        failed, mods = [], set()
        for m in re.finditer(r'error: (Verif/\S+\.lean):(\d+):\d+', out):
            d = decl_at(WORK + '/' + m.group(1), int(m.group(2)))
            mods.add(m.group(1)[:-5].replace('/', '.'))
            if d and d not in failed:
                failed.append(d)
        # modules that cannot be built any more
        dep, blocked = deps(), set(mods)
        grow = True
        while grow:
            grow = False
            for a, bs in dep.items():
                if a not in blocked and any(b in blocked for b in bs):
                    blocked.add(a)
                    grow = True
        rec = {'definition': full, 'edit': edit, 'claim': claim, 'failed': failed,
               'blocked_modules': sorted(blocked - mods), 'tightened': tight[0] if tight else []}
        if not failed:
            rec['survived'] = True
        with open(LOG, 'a') as f:
            f.write(json.dumps(rec, ensure_ascii=False) + '\n')
        print('KILLED ' if failed else 'SURVIVED', full, '|', edit[:70].replace('\n', ' '), '|', failed[:4], flush=True)


main()
