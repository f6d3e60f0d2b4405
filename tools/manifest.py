#!/usr/bin/env python3
"""Regenerate MANIFEST.json from theorem names C<nn>_* in lean/Verif/Props and notes in tools/notes.txt
(lines: Cxx|status|note; status '-' means derive)."""
import json,re,glob,os
root=os.path.dirname(os.path.dirname(os.path.abspath(__file__)))
ths={}
for f in sorted(glob.glob(root+'/lean/Verif/Props/**/*.lean',recursive=True)):
    ns=[]
    for l in open(f):
        m=re.match(r'namespace (\S+)',l)
        if m: ns.append(m.group(1))
        m=re.match(r'end (\S+)',l)
        if m and ns and m.group(1)==ns[-1]: ns.pop()
        m=re.match(r'(?:private )?theorem (C\d+)_(\S*)',l)
        if m:
            nm=m.group(1)+'_'+m.group(2)
            ths.setdefault(m.group(1),[]).append('.'.join(ns+[nm]))
notes={}
for l in open(root+'/tools/notes.txt'):
    l=l.rstrip('\n')
    if l.strip():
        a,b,c=l.split('|',2); notes[a]=(b,c)
claims=[]
for l in open(root+'/properties.jsonl'):
    i=json.loads(l)['id']
    st,nt=notes.get(i,('-',''))
    t=ths.get(i,[])
    if st=='-':
        if not t: continue
        st='partial' if any(('_partial' in x or '_refuted' in x) for x in t) else 'proved'
    claims.append({'property':i,'status':st,'theorems':t,'note':nt})
json.dump({'claims':claims},open(root+'/MANIFEST.json','w'),indent=1)
print(len(claims),'claims',sum(c['status']=='proved' for c in claims),'proved')
