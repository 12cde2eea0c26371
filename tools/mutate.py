#!/usr/bin/env python3
"""Seed realistic bugs in a scratch copy of the model and record which theorems stop proving.

usage: mutate.py SEEDS.py  (a file defining SEEDS = [(model file, definition, old text, new text, claim broken), ...])
Appends one line per attempt to /verif/seeded/LOG.jsonl.  Never touches /verif/lean."""
import sys, os, time, re, json, subprocess, runpy, shutil
SRC = '/verif/lean'; MUT = '/tmp/mut/lean'; LOG = '/verif/seeded/LOG.jsonl'
def sh(c, t=3000):
    return subprocess.run(c, shell=True, capture_output=True, text=True, timeout=t)
def sync():
    sh(f'rm -rf /tmp/mut; mkdir -p {MUT} /tmp/mut/base; cd /verif && git archive HEAD lean | tar x -C /tmp/mut; cp -a {SRC}/.lake {MUT}/; cp -a {SRC}/.lake/build /tmp/mut/base/')
    r = sh(f'cd {MUT} && lake build 2>&1')
    if r.returncode: sys.exit('the unedited model does not build')
    sh(f'rm -rf /tmp/mut/base/build; cp -a {MUT}/.lake/build /tmp/mut/base/')
def imports():
    imp = {}
    for root, _, fs in os.walk(f'{MUT}/Verif'):
        for f in fs:
            if f.endswith('.lean'):
                p = os.path.join(root, f)
                imp[os.path.relpath(p, MUT)[:-5]] = {x.replace('.', '/') for x in re.findall(r'(?m)^import (Verif[\w.]*)', open(p).read())}
    return imp
def dependents(f):
    imp = imports(); todo = [f'Verif/Model/{f}']; seen = set(todo)
    while todo:
        x = todo.pop()
        for k, v in imp.items():
            if x in v and k not in seen: seen.add(k); todo.append(k)
    return seen
def restore(mods):
    for m in list(mods) + ['Verif']:
        for sub in ('lib/lean', 'ir'):
            sh(f'rm -f {MUT}/.lake/build/{sub}/{m}.*; cp -a /tmp/mut/base/build/{sub}/{m}.* {MUT}/.lake/build/{sub}/$(dirname {m})/ 2>/dev/null')
def decl_at(path, line):
    name = None
    for i, l in enumerate(open(path), 1):
        m = re.match(r'\s*(?:private |noncomputable |protected |@\[[^\]]*\]\s*)*(theorem|lemma|example|def|instance)\s*([^\s:({\[]*)', l)
        if m: name = m.group(2) or m.group(1)
        if i >= line: return name
    return name
def users(d):
    r = sh(f"cd {MUT} && grep -rlw '{d}' Verif/Lemmas Verif/Props")
    return [x[:-5].replace('/', '.') for x in r.stdout.split()]
def build(targets=()):
    r = sh(f'cd {MUT} && LEAN_NUM_THREADS=2 nice -n 15 lake build {" ".join(targets)} 2>&1')
    out = r.stdout
    failed = []
    for m in re.finditer(r'error: (Verif/[\w/]+\.lean):(\d+):\d+', out):
        d = decl_at(os.path.join(MUT, m.group(1)), int(m.group(2)))
        e = (m.group(1)[6:-5], d)
        if e not in failed: failed.append(e)
    return r.returncode, failed, out
def main():
    seeds = runpy.run_path(sys.argv[1])['SEEDS']
    done = set()
    if os.path.exists(LOG):
        for l in open(LOG):
            d = json.loads(l); done.add((d['file'], d['definition'], d['edit']))
    while sh('pgrep -f [v]erdict.py').stdout: time.sleep(20)
    sync()
    for f, d, old, new, claim in seeds:
        edit = f'`{old}` -> `{new}`'
        if (f, d, edit) in done: continue
        while sh('pgrep -f [v]erdict.py').stdout: time.sleep(20)   # leave the machine to a running gate
        p = f'{MUT}/Verif/Model/{f}.lean'
        src = open(p).read()
        m = re.search(r'(?:def|structure|abbrev|inductive) ' + re.escape(d) + r'(?![\w.])', src)
        if not m: print('NO DEF', f, d); continue
        i = src.find(old, m.start())
        if i < 0: print('NO TEXT', f, d, old); continue
        open(p, 'w').write(src[:i] + new + src[i+len(old):])
        try:
            deps = dependents(f)
            t = [x for x in users(d) if x.replace('.', '/') in deps]   # the modules naming the definition first; everything if none of them objects
            rc, failed, out = build(t) if t else (0, [], '')
            rest = sorted(x.replace('/', '.') for x in deps)
            if not failed: rc, failed, out = build(rest)
        except subprocess.TimeoutExpired:
            rc, failed, out = 1, [('timeout', None)], ''
        open(p, 'w').write(src)
        restore(deps)
        if rc != 0 and any(x[0] == f'Model/{f}' for x in failed):
            print('DOES NOT COMPILE', f, d, edit, out[-600:]); continue
        rec = dict(file=f'Verif/Model/{f}.lean', definition=d, edit=edit, claim=claim,
                   failed=[f'{b} ({a})' for a, b in failed], tightened=[], outcome='rejected' if failed else 'SURVIVED')
        rec['file'] = f
        with open(LOG, 'a') as h: h.write(json.dumps(rec, ensure_ascii=False) + '\n')
        print(rec['outcome'], f, d, edit, rec['failed'][:6], flush=True)
main()
