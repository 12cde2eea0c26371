"""Regenerate MANIFEST.json and lean/Verif.lean from the Lean sources.

A property theorem is a theorem named Cnn_... in lean/Verif/Props. Status and notes come from status.json."""
import json, pathlib, re
root = pathlib.Path(__file__).resolve().parent.parent
lean = root / 'lean'
mods = sorted(str(p.relative_to(lean))[:-5].replace('/', '.') for p in (lean / 'Verif').rglob('*.lean'))
(lean / 'Verif.lean').write_text(''.join(f'import {m}\n' for m in mods))
thms = {}
for p in sorted((lean / 'Verif' / 'Props').rglob('*.lean')):
    ns = []
    for line in p.read_text().split('\n'):
        m = re.match(r'namespace (\S+)', line)
        if m: ns.append(m.group(1))
        m = re.match(r'end (\S+)', line)
        if m and ns and ns[-1] == m.group(1): ns.pop()
        m = re.match(r'(?:@\[[^\]]*\] )?theorem (C\d+_\S+)', line)
        if m: thms.setdefault(m.group(1).split('_')[0], []).append('.'.join(ns + [m.group(1)]))
status = json.loads((root / 'tools' / 'status.json').read_text())
claims = []
for line in (root / 'properties.jsonl').read_text().splitlines():
    i = json.loads(line)['id']
    t = thms.get(i, [])
    st = status.get(i, {})
    s = st.get('status', 'partial')
    if s == 'proved' and not t: s = 'partial'
    note = st.get('note', '') or ('planned, not proved yet' if not t else '')
    claims.append({'property': i, 'status': s, 'theorems': t, 'note': note})
(root / 'MANIFEST.json').write_text(json.dumps({'claims': claims}, indent=1, ensure_ascii=False) + '\n')
n = sum(c['status'] == 'proved' for c in claims)
print(len(mods), 'modules;', sum(map(len, thms.values())), 'theorems;', n, 'proved of', len(claims))
