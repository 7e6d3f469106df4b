#!/usr/bin/env python3
"""Recompute the line ranges in `name`, /repo/.../file.rs:.. citations of one model file.
usage: fixcites.py <lean file> <rust file>"""
import re,sys
lean,rust=sys.argv[1:3]
lines=open(rust).read().split('\n')
rng={}
for i,l in enumerate(lines):
    m=re.match(r'(\s*)(?:pub(?:\([a-z]+\))? )?fn ([a-z0-9_]+)',l)
    if m:
        ind=m.group(1)
        for j in range(i,len(lines)):
            if lines[j]==ind+'}': break
        rng.setdefault(m.group(2),(i+1,j+1))
src=open(lean).read()
rel=rust
def fix(m):
    doc=m.group(0)
    names=[n for n in re.findall(r'`([a-z0-9_]+)(?:\([a-z0-9_, ]*\))?(?:::[a-z_]+)?`',doc) if n in rng]
    names+= [n for n in re.findall(r'`[A-Za-z]+::([a-z0-9_]+)`',doc) if n in rng]
    if not names or rel not in doc: return doc
    r=', '.join('%d-%d'%rng[n] for n in dict.fromkeys(names))
    return re.sub(re.escape(rel)+r':[0-9, -]*[0-9]', rel+':'+r, doc, count=1)
out=re.sub(r'/--.*?-/',fix,src,flags=re.S)
open(lean,'w').write(out)
