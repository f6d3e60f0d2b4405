"""Append properties to properties.jsonl.  usage: addprop.py < file
Each property block: lines 'id|title', 'S: statement', 'Q: quantifier', 'T: why tests cannot', 'A: file:sym; file:sym', blank line."""
import sys, json, os
out = os.path.join(os.path.dirname(__file__), '..', 'properties.jsonl')
have = {json.loads(l)['id'] for l in open(out) if l.strip()}
with open(out, 'a') as f:
    for blk in sys.stdin.read().strip().split('\n\n'):
        ls = blk.strip().split('\n')
        i, t = ls[0].split('|', 1)
        assert i not in have, i
        d = {'id': i.strip(), 'title': t.strip()}
        for l in ls[1:]:
            k, v = l[0], l[2:].strip()
            if k == 'S': d['statement'] = v
            if k == 'Q': d['quantifier'] = v
            if k == 'T': d['why_tests_cant'] = v
            if k == 'A': d['anchors'] = [a.strip() for a in v.split(';') if a.strip()]
        assert len(d) == 6, d
        f.write(json.dumps(d) + '\n')
