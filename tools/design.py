"""Regenerate the generated sections of DESIGN.md (property table, findings, code modelled / not modelled)."""
import ast, json, pathlib, re
root = pathlib.Path(__file__).resolve().parent.parent
repo = pathlib.Path('/repo/fluids')
D = root / 'DESIGN.md'
MARK = '<!-- generated below by tools/design.py -->'
alias = {}
for p in repo.rglob('*.py'):
    r = str(p.relative_to(repo)); alias.setdefault(r, p); alias.setdefault(p.name, p) if p.name != '__init__.py' else None
alias['constants.py'] = repo / 'constants.py'
if (repo / 'constants').is_dir() and not alias['constants.py'].exists(): alias['constants.py'] = repo / 'constants' / 'constants.py'
cited, unknown = {}, set()
for p in sorted((root / 'lean/Verif/Model').rglob('*.lean')):
    for doc in re.findall(r'/-[-!](.*?)-/', p.read_text(), re.S):
        for f, nums in re.findall(r'([A-Za-z_0-9/]+\.py):([0-9][-0-9, ]*)', doc):
            if f not in alias: unknown.add(f); continue
            for a, _, b in re.findall(r'(\d+)(-(\d+))?', nums):
                cited.setdefault(alias[f], []).append((int(a), int(b or a)))
        m = re.search(r'([A-Za-z_0-9/]+\.py):', doc)
        if m and m.group(1) in alias:
            for a in re.findall(r'\blines? (\d+(?:, \d+)*)', doc):
                for n in a.split(', '): cited[alias[m.group(1)]].append((int(n), int(n)))
def funcs(tree):
    for n in tree.body:
        if isinstance(n, (ast.FunctionDef,)): yield n.name, n
        elif isinstance(n, ast.ClassDef):
            for k in n.body:
                if isinstance(k, ast.FunctionDef): yield n.name + '.' + k.name, k
        elif isinstance(n, (ast.If, ast.Try)):
            yield from funcs(n)
def body_range(n):
    b = n.body
    if isinstance(b[0], ast.Expr) and isinstance(b[0].value, ast.Constant) and isinstance(b[0].value.value, str): b = b[1:]
    return (b[0].lineno, n.end_lineno) if b else (n.lineno, n.end_lineno)
def main():
    out = [MARK, '']
    props = {}
    for l in open(root / 'properties.jsonl'):
        x = json.loads(l); props[x['id']] = x
    man = json.load(open(root / 'MANIFEST.json'))['claims']
    out += ['## 5. Result per property', '']
    for c in man:
        out.append(f"* **{c['property']}** {props[c['property']]['title']} - {c['status']}, {len(c['theorems'])} theorems. {c['note']}")
    out += ['', '## 6. Findings', '', 'Where the code does not have the property a user would expect, the exact behaviour is stated in the property and proved, with a concrete witness:', '']
    for k, x in props.items():
        m = re.search(r'\((Findings?: .*)\)\s*$', x['statement'])
        if m: out.append(f'* **{k}** {m.group(1)}')
    out += ['', '## 7. Code modelled and not modelled', '',
            'Computed from the citations in the model: a function counts as modelled when a definition cites lines of its body.', '']
    tot = [0, 0]
    for p in sorted(repo.rglob('*.py')):
        r = str(p.relative_to(repo))
        fs = list(funcs(ast.parse(p.read_text())))
        if not fs: continue
        rs = cited.get(p, [])
        yes, no = [], []
        for name, n in fs:
            a, b = body_range(n)
            (yes if any(x <= b and a <= y for x, y in rs) else no).append(name)
        tot[0] += len(yes); tot[1] += len(no)
        if yes: out.append(f"* `{r}` modelled ({len(yes)}): {', '.join(yes)}." + (f" Not modelled ({len(no)}): {', '.join(no)}." if no else ' Nothing else.'))
        else: out.append(f"* `{r}`: not modelled ({len(no)} functions).")
    out += ['', f'In all {tot[0]} functions and methods are modelled and {tot[1]} are not.', '']
    s = D.read_text().split(MARK)[0].rstrip() + '\n\n'
    D.write_text(s + '\n'.join(out))
    print(tot, unknown)
main()
