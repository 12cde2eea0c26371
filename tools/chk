#!/bin/bash
# usage: chk file [maxchars]  (builds imports first)
cd /verif/lean
mods=$(grep -oE "^import Verif[A-Za-z.]*" "$1" | awk '{print $2}')
[ -n "$mods" ] && lake build $mods 2>&1 | grep -E -A8 "^error" | head -40
timeout 900 lake env lean "$1" 2>&1 | python3 -c "
import sys,re
t=sys.stdin.read()
parts=re.split(r'(?m)^(?=\S+\.lean:\d+:\d+: |Try this)',t)
out=[]
for p in parts:
    if not p.strip(): continue
    if p.startswith('Try this'): continue
    if 'warning' in p.split('\n')[0] and 'sorry' not in p: continue
    L=p.rstrip().split('\n')
    if len(L)>26: L=L[:6]+['   ...']+L[-18:]
    out.append('\n'.join(L))
s='\n'.join(out)
m=int(sys.argv[1])
print(s[:m] if len(s)<=m else s[:m]+'\n...TRUNC %d errors'%len(out))
" "${2:-5000}"
