"""Append /tmp/mut/last.jsonl to seeded/LOG.jsonl.  usage: logadd.py ['edit substring=Theorem1,Theorem2' ...] (tightened theorems)"""
import sys, json, os
t = dict(a.split('=', 1) for a in sys.argv[1:])
log = os.path.join(os.path.dirname(__file__), '..', 'seeded', 'LOG.jsonl')
n = 0
with open(log, 'a') as f:
    for l in open('/tmp/mut/last.jsonl'):
        d = json.loads(l)
        d.setdefault('theorems_tightened', [])
        for k, v in t.items():
            if k in d.get('edit', ''):
                d['theorems_tightened'] = v.split(',')
        f.write(json.dumps(d) + '\n'); n += 1
os.rename('/tmp/mut/last.jsonl', '/tmp/mut/done_%d.jsonl' % os.getpid())
print(n)
