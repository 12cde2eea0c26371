"""Reads the tables of /repo/fluids/piping.py as text (syntax tree only, nothing is executed) and writes lean/Verif/Model/PipingTables.lean."""
import ast, sys
from fractions import Fraction as F
src=open('/repo/fluids/piping.py').read()
tree=ast.parse(src)
env={}; lines={}
def ev(n):
    if isinstance(n,ast.Constant):
        return n.value if isinstance(n.value,(str,bool)) else F(ast.get_source_segment(src,n))
    if isinstance(n,ast.UnaryOp) and isinstance(n.op,ast.USub): return -ev(n.operand)
    if isinstance(n,ast.List): return [ev(x) for x in n.elts]
    if isinstance(n,ast.Tuple): return tuple(ev(x) for x in n.elts)
    if isinstance(n,ast.Name): return env[n.id]
    if isinstance(n,ast.Dict): return {k.value:ev(v) for k,v in zip(n.keys,n.values)}
    if isinstance(n,ast.BinOp) and isinstance(n.op,ast.Add): return ev(n.left)+ev(n.right)
    if isinstance(n,ast.Subscript) and isinstance(n.slice,ast.Slice):
        i=lambda x: None if x is None else int(ev(x))
        return ev(n.value)[i(n.slice.lower):i(n.slice.upper)]
    if isinstance(n,ast.ListComp):
        # [float(v) for v in range(a, b)]
        return [F(v) for v in range(*[int(ev(a)) for a in n.generators[0].iter.args])]
    raise Exception(ast.dump(n)[:80])
for st in tree.body:
    tg=[]
    if isinstance(st,ast.Assign): tg=st.targets; v=st.value
    elif isinstance(st,ast.AnnAssign): tg=[st.target]; v=st.value
    for g in tg:
        if isinstance(g,ast.Name):
            try: env[g.id]=ev(v); lines[g.id]=(st.lineno,st.end_lineno)
            except Exception as e: print(g.id,e,file=sys.stderr)
D=env['schedule_lookup']; W=env['wire_schedules']
def q(x):
    den=x.denominator
    e=0
    while 10**e % den: e+=1
    n=x.numerator*(10**e//den)
    return f"d {n} {e}" if n>=0 else f"d ({n}) {e}"
def lst(l): return "["+", ".join(q(x) for x in l)+"]"
import re
def wrap(s,w=150):
    out=[];cur=""
    for tok in s.split(", "):
        if len(cur)+len(tok)+2>w: out.append(cur.rstrip()); cur="    "
        cur+=tok+", "
    out.append(cur[:-2]); return "\n".join(out)
o=["import Mathlib.Data.Rat.Defs","","/-!","# Tables of `fluids/piping.py`","",
"Generated by `tools/piping_tables.py` from the text of the source. Each number is the exact decimal written there (the code holds the nearest",
"double). `d n e` is the decimal `n / 10^e`. Pipe dimensions are in mm, nominal sizes as tabulated.","-/","","namespace Verif.Piping","",
"/-- the decimal `n · 10⁻ᵉ` (notation for the literals of the source) -/","def d (n : ℤ) (e : ℕ) : ℚ := mkRat n (10 ^ e)","",
"/-- one schedule: the tuple `(NPSes, Dis, Dos, ts)` (piping.py:744) -/","structure Table where","  nps : List ℚ","  di : List ℚ","  od : List ℚ","  t : List ℚ","",
"/-- one wire schedule: `(gauges, inch, SI)` (piping.py:906-911; the fourth entry, a flag, is never used) -/","structure Wire where","  gauges : List ℚ","  inch : List ℚ","  si : List ℚ",""]
import ast as _a
dn=[st for st in tree.body if isinstance(st,(_a.AnnAssign)) and getattr(st.target,'id','')=='schedule_lookup'][0]
names=[]
for k,v in zip(dn.value.keys,dn.value.values):
    key=k.value; ids=[x.id for x in v.elts]; nm="T_"+re.sub(r'\W','_',key)
    names.append((key,nm))
    ls=sorted(set(lines[i] for i in ids))
    o.append(f"/-- piping.py:{v.lineno}: schedule \"{key}\" = ({', '.join(ids)}), from lines {', '.join(f'{a}' if a==b else f'{a}-{b}' for a,b in ls)} -/")
    o.append(f"def {nm} : Table where")
    for f,i in zip(("nps","di","od","t"),ids): o.append(wrap(f"  {f} := {lst(env[i])}"))
    o.append("")
o.append(f"/-- piping.py:{dn.lineno}-{dn.end_lineno} `schedule_lookup` -/")
o.append("def schedule_lookup : List (String × Table) := [")
o.append(",\n".join(f"  (\"{k}\", {n})" for k,n in names)+"]"); o.append("")
wn=[st for st in tree.body if isinstance(st,_a.Assign) and getattr(st.targets[0],'id','')=='wire_schedules'][0]
wnames=[]
for k,v in zip(wn.value.keys,wn.value.values):
    key=k.value; ids=[x.id for x in v.elts[:3]]; nm="W_"+key; wnames.append((key,nm))
    ls=sorted(set(lines[i] for i in ids))
    o.append(f"/-- piping.py:{v.lineno}: wire schedule \"{key}\", from lines {', '.join(f'{a}' if a==b else f'{a}-{b}' for a,b in ls)} -/")
    o.append(f"def {nm} : Wire where")
    for f,i in zip(("gauges","inch","si"),ids): o.append(wrap(f"  {f} := {lst(env[i])}"))
    o.append("")
o.append(f"/-- piping.py:{wn.lineno}-{wn.end_lineno} `wire_schedules` -/")
o.append("def wire_schedules : List (String × Wire) := ["+", ".join(f"(\"{k}\", {n})" for k,n in wnames)+"]"); o.append("")
o.append("end Verif.Piping")
if __name__=='__main__' and 'noout' not in globals():
    open('/verif/lean/Verif/Model/PipingTables.lean','w').write("\n".join(o)+"\n")
