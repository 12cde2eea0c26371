#!/usr/bin/env python3
"""List model definitions that no property module mentions, directly or through another model definition."""
import re, glob
defs = {}
for f in sorted(glob.glob('/verif/lean/Verif/Model/*.lean')):
    s = open(f).read()
    ms = list(re.finditer(r'^(?:@\[[^\]]*\]\s*)?(?:noncomputable |private )*(?:def|abbrev) ([^\s:({\[]+)', s, re.M))
    for i, m in enumerate(ms):
        body = s[m.end(): ms[i+1].start() if i+1 < len(ms) else len(s)]
        body = re.sub(r'/-.*?-/', '', body, flags=re.S)
        defs[(f.split('/')[-1][:-5], m.group(1))] = body
def words(t): return set(re.findall(r"[A-Za-z_][\w']*", t))
props = set()
for f in glob.glob('/verif/lean/Verif/Props/*.lean') + glob.glob('/verif/lean/Verif/Lemmas/*.lean'):
    props |= words(re.sub(r'/-.*?-/', '', open(f).read(), flags=re.S))
short = lambda n: n.split('.')[-1]
reach = {k for k in defs if short(k[1]) in props}
todo = list(reach)
while todo:
    k = todo.pop()
    w = words(defs[k])
    for j in defs:
        if j not in reach and short(j[1]) in w: reach.add(j); todo.append(j)
for k in defs:
    if k not in reach: print(*k)
