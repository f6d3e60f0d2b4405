#!/usr/bin/env python3
"""design.py 'table row' ['finding' ...]: insert a plan row into DESIGN.md and append findings."""
import sys
p='/verif/DESIGN.md';s=open(p).read()
i=s.index("(The table is extended")
s=s[:i].rstrip('\n')+'\n'+sys.argv[1]+'\n\n'+s[i:]
for f in sys.argv[2:]: s=s.rstrip('\n')+'\n* '+f+'\n'
open(p,'w').write(s)
