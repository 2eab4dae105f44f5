"""Append properties given as JSON objects on stdin (one per line) to properties.jsonl."""
import sys, json
path = '/verif/properties.jsonl'
have = {json.loads(l)['id'] for l in open(path)}
with open(path, 'a') as f:
    for line in sys.stdin:
        if line.strip():
            o = json.loads(line)
            assert set(o) == {'id', 'title', 'statement', 'quantifier', 'why_tests_cant', 'anchors'}, o
            assert o['id'] not in have, o['id']
            f.write(json.dumps(o, ensure_ascii=False) + '\n')
