#!/usr/bin/env python3
"""Write a seeds file for mutate.py with one typical slip per model definition: a boundary, a sign, swapped operands, a changed constant, a
dropped term, a wrong branch, a wrong index.

usage: automut.py SEED OUT.py [Module ...]"""
import re, glob, random, sys, json
seed, out, only = int(sys.argv[1]), sys.argv[2], sys.argv[3:]
random.seed(seed)
SKIP = {'PipingTables', 'SieveTables', 'Constants'}
props = {}
for f in glob.glob('/verif/lean/Verif/Props/*.lean'):
    s = open(f).read()
    parts = re.split(r'(?m)^(?=(?:@\[[^\]]*\]\s*)?theorem )', s)
    for p in parts:
        m = re.match(r'(?:@\[[^\]]*\]\s*)?theorem (C\d+)_', p)
        if m:
            for w in set(re.findall(r"[A-Za-z_][\w']*", p)): props.setdefault(w, set()).add(m.group(1))
titles = {}
for l in open('/verif/properties.jsonl'):
    d = json.loads(l); titles[d['id']] = d['title']
OPS = [(r' ≤ ', ' < ', 'boundary'), (r' < ', ' ≤ ', 'boundary'), (r' ≥ ', ' > ', 'boundary'), (r' > ', ' ≥ ', 'boundary'),
       (r' \+ ', ' - ', 'sign'), (r' - ', ' + ', 'sign'), (r' \* ', ' + ', 'operator'), (r' / ', ' * ', 'operator'),
       (r'\bmax\b', 'min', 'max/min'), (r'\bmin\b', 'max', 'max/min'), (r'\.valueError', '.typeError', 'wrong error'),
       (r'= 0 then', '≠ 0 then', 'wrong branch'), (r'isSome', 'isNone', 'wrong branch'), (r'\btrue\b', 'false', 'flag'), (r'\bfalse\b', 'true', 'flag'),
       (r'\bexp \(', 'log (', 'function'), (r'\bplog\b', 'plog10', 'function'), (r' \^ 2\b', ' ^ 3', 'exponent'), (r' ∧ ', ' ∨ ', 'and/or'), (r' ∨ ', ' ∧ ', 'and/or')]
SEEDS = []
for f in sorted(glob.glob('/verif/lean/Verif/Model/*.lean')):
    mod = f.split('/')[-1][:-5]
    if mod in SKIP or (only and mod not in only): continue
    s = open(f).read()
    ms = list(re.finditer(r'^(?:@\[[^\]]*\]\s*)?(?:noncomputable |private )*(?:def|abbrev) ([^\s:({\[]+)', s, re.M))
    for i, m in enumerate(ms):
        name = m.group(1)
        end = ms[i+1].start() if i+1 < len(ms) else len(s)
        whole = s[m.end():end]
        cut = re.search(r'\n\n|\n/-', whole)
        whole = whole[:cut.start()] if cut else whole
        k = whole.find(':=') if ':=' in whole else whole.find('\n')
        # the signature may contain defaults ':='; take the last ':=' of the first line(s) ending a signature
        mm = re.search(r':= *(do)?\n|:=\n|:= (?=[^\n]*$)', whole, re.M)
        start = mm.end() if mm else k
        body = whole[start:]
        cands = []
        for pat, rep, kind in OPS:
            for x in re.finditer(pat, body): cands.append((x.start(), x.end(), rep, kind))
        for x in re.finditer(r'(?<![\w.])(\d+\.\d+|\d+)(?![\w.])', body):
            v = x.group(1)
            nv = (v[:-1] + str((int(v[-1]) + 1) % 10)) if '.' in v else str(int(v) + 1)
            if x.start() > 0 and body[x.start()-1] == '^': continue
            cands.append((x.start(), x.end(), nv, 'constant'))
        for x in re.finditer(r'(\([^()\n]*\)|[\w.]+) /ₚ (\([^()\n]*\)|[\w.]+)', body):
            cands.append((x.start(), x.end(), f'{x.group(2)} /ₚ {x.group(1)}', 'swapped'))
        if not cands: continue
        random.shuffle(cands)
        kinds = sorted({c[3] for c in cands}); kd = random.choice(kinds)
        a, b, rep, kind = next(c for c in cands if c[3] == kd)
        # widen to a unique piece of text after the definition
        full = m.group(0)
        for w in range(0, 200, 4):
            lo, hi = max(0, a - w), min(len(body), b + w)
            old = body[lo:hi]
            if '\n' in old and w > 60: pass
            pos = s.find(old, m.start())
            if pos == m.end() + start + lo: break
        new = body[lo:a] + rep + body[b:hi]
        ids = sorted(props.get(name.split('.')[-1], set()))
        claim = f"{kind}; " + (', '.join(f'{c}: {titles.get(c, "")}' for c in ids[:3]) if ids else 'used by other definitions')
        SEEDS.append((mod, name, old, new, claim))
random.shuffle(SEEDS)
open(out, 'w').write('SEEDS = [\n' + ''.join(f' {x!r},\n' for x in SEEDS) + ']\n')
print(len(SEEDS))
