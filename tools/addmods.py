#!/usr/bin/env python3
"""Regenerates lean/Verif.lean: import every module under lean/Verif."""
import os
R='/verif/lean'
m=[]
for d,_,fs in os.walk(R+'/Verif'):
    for f in fs:
        if f.endswith('.lean'):
            m.append(os.path.relpath(os.path.join(d,f),R)[:-5].replace('/','.'))
open(R+'/Verif.lean','w').write("".join("import %s\n"%x for x in sorted(m)))
