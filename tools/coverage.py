#!/usr/bin/env python3
"""Which functions of /repo/src are cited by a definition of the model: file -> functions not cited."""
import re, glob, os, ast, sys
R='/repo/src'
cites={}
for f in glob.glob('/verif/lean/Verif/Model/*.lean'):
    t=open(f).read()
    last=None
    for c in re.findall(r'/--?.*?-/',t,re.S):
        for m in re.finditer(r'([\w/]+\.py):(\d+(?:-\d+)?(?:,\s*\d+(?:-\d+)?)*)',c):
            for r in re.split(r',\s*',m.group(2)):
                a=r.split('-'); cites.setdefault(os.path.basename(m.group(1)),[]).append((int(a[0]),int(a[-1])))
for p in sorted(glob.glob(R+'/**/*.py',recursive=True)):
    if '/unitest' in p or '/test' in p or 'examples' in p: continue
    ls=open(p,errors='replace').read().split('\n')
    fs=[]
    for i,l in enumerate(ls):
        m=re.match(r'(\s*)def (\w+)',l)
        if m: fs.append([m.group(2),i+1,len(m.group(1)),None])
    for k,f in enumerate(fs):
        e=len(ls)
        for j in range(f[1],len(ls)):
            l=ls[j]
            if l.strip() and len(l)-len(l.lstrip())<=f[2] and not l.strip().startswith(('#','"""')):
                e=j; break
        f[3]=e
    b=os.path.basename(p)
    miss=[(n,a,e) for n,a,_,e in fs if not any(x<=e and y>=a for x,y in cites.get(b,[]))]
    if miss: print(p[len(R)+1:], len(fs), [(n,'%d-%d'%(a,e)) for n,a,e in miss])
