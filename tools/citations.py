"""List model definitions whose comment cites no file and line of /repo."""
import re, pathlib
root = pathlib.Path(__file__).resolve().parent.parent / 'lean/Verif/Model'
for p in sorted(root.glob('*.lean')):
    s = p.read_text()
    for m in re.finditer(r'(?m)^(?:@\[[^\]]*\]\s*)?(?:noncomputable |private |protected |scoped )*(def|structure|abbrev|inductive|instance|notation)\s+("[^"]*"|[^\s:({\[]+)', s):
        pre = s[:m.start()].rstrip()
        doc = ''
        if pre.endswith('-/'):
            i = max(pre.rfind('/--'), pre.rfind('/-!'))
            if pre[i:i+3] == '/--': doc = pre[i:]
        if not re.search(r'\w+\.py:\d', doc): print(p.name, m.group(1), m.group(2), '|', ' '.join(doc.split())[:110])
