#!/usr/bin/env python3
"""Rewrites the list of modelled code in DESIGN.md from the citations in lean/Verif/Model."""
import re,glob,collections
C=collections.defaultdict(lambda: collections.defaultdict(list))
for p in sorted(glob.glob('/verif/lean/Verif/Model/*.lean')):
    s=open(p).read(); m=p.split('/')[-1][:-5]
    for c in re.findall(r'/-[-!](.*?)-/',s,re.S):
        for f,r in re.findall(r'(src/[\w/]+\.(?:cpp|h|inl))((?::\s?\d+(?:-\d+)?)?(?:,\s?\d+(?:-\d+)?)*)',c):
            for a in re.findall(r'\d+(?:-\d+)?',r):
                x=tuple(int(v) for v in a.split('-')); C[f][m].append((x[0],x[-1]))
out=[]
for f in sorted(C):
    mods=', '.join('`%s`'%m for m in sorted(C[f]))
    iv=sorted(set(i for m in C[f] for i in C[f][m])); mg=[]
    for a,b in iv:
        if mg and a<=mg[-1][1]+1: mg[-1][1]=max(mg[-1][1],b)
        else: mg.append([a,b])
    out.append('| `%s` | %s | %s |'%(f[4:],', '.join(str(a) if a==b else f'{a}–{b}' for a,b in mg) or 'whole file',mods))
p='/verif/DESIGN.md'; s=open(p).read()
A='<!-- cited -->\n'; B='<!-- /cited -->\n'
t=A+'| file under `src` | lines | model modules |\n|---|---|---|\n'+'\n'.join(out)+'\n'+B
s=s[:s.index(A)]+t+s[s.index(B)+len(B):]
open(p,'w').write(s); print(len(out),'files')
