import ast,sys,re
path,fns=sys.argv[1],sys.argv[2:]
src=open('/repo/fluids/'+path).read()
tree=ast.parse(src)
FN={'sqrt':'psqrt','log':'plog','log10':'plog10','acos':'pacos','asin':'pasin'}
PURE={'exp':'Real.exp','sin':'Real.sin','cos':'Real.cos','tan':'Real.tan','atan':'Real.arctan','tanh':'Real.tanh','sinh':'Real.sinh','cosh':'Real.cosh','log1p':'log1p','min':'min','max':'max','asinh':'Real.arsinh','float':'','atan2':'atan2'}
RES={'lambda':'lam','at':'at_','end':'end_','def':'def_','from':'from_','then':'then_','show':'show_','open':'open_','in':'in_','λ':'lam'}
def nm(s): return RES.get(s,s)
def num(v):
    if isinstance(v,bool): return 'true' if v else 'false'
    if isinstance(v,int): return str(v)
    if isinstance(v,float):
        if v==int(v) and abs(v)<1e15: return str(int(v))
        return repr(v)
    if v is None: return 'none'
    return repr(v).replace("'",'"')
P={'cmp':50,'add':65,'mul':70,'neg':75,'pow':75,'app':90,'atom':100}
PEND=[];CNT=[0];DEPTH=[0]
def act(a):
    CNT[0]+=1
    v=f't{CNT[0]}'
    PEND.append((v,a))
    return (v,100)
def flush(pad):
    o=[f'{pad}let {v} ← {a}' for v,a in PEND]; PEND.clear(); return o
def par(t,need):
    s,p=t
    return s if p>=need else '('+s+')'
def e(n):
    if isinstance(n,ast.Constant):
        seg=ast.get_source_segment(src,n)
        if isinstance(n.value,float):
            seg=seg.rstrip('.')
            if re.fullmatch(r'\d+\.0*',seg): seg=seg.split('.')[0]
            if seg.startswith('.'): seg='0'+seg
            seg=re.sub(r'\.[eE]','e',seg).replace('E','e').replace('e+','e')
            return (seg,100)
        return (num(n.value),100)
    if isinstance(n,ast.Name): return (nm(n.id) if n.id!='pi' else 'π',100)
    if isinstance(n,ast.UnaryOp):
        if isinstance(n.op,ast.USub): return ('-'+par(e(n.operand),76),75)
        if isinstance(n.op,ast.Not): return ('¬ '+par(e(n.operand),90),40)
        if isinstance(n.op,ast.UAdd): return e(n.operand)
    if isinstance(n,ast.BinOp):
        o=n.op
        if isinstance(o,ast.Add): return (par(e(n.left),65)+' + '+par(e(n.right),66),65)
        if isinstance(o,ast.Sub): return (par(e(n.left),65)+' - '+par(e(n.right),66),65)
        if isinstance(o,ast.Mult): return (par(e(n.left),70)+' * '+par(e(n.right),71),70)
        if isinstance(o,ast.Div):
            if isinstance(n.right,ast.Constant) and n.right.value!=0:
                return (par(e(n.left),70)+' / '+par(e(n.right),71),70)
            return act(par(e(n.left),70)+' /ₚ '+par(e(n.right),71))
        if isinstance(o,ast.Pow):
            r=n.right
            if isinstance(r,ast.Constant) and float(r.value)==int(r.value) and r.value>=0 :
                return (par(e(n.left),76)+' ^ '+str(int(r.value)),75)
            return act(par(e(n.left),76)+' ^ₚ '+par(e(r),76))
        if isinstance(o,ast.FloorDiv): return (par(e(n.left),70)+' // '+par(e(n.right),71),70)
        if isinstance(o,ast.Mod): return (par(e(n.left),70)+' % '+par(e(n.right),71),70)
    if isinstance(n,ast.Call):
        f=n.func.id if isinstance(n.func,ast.Name) else ast.unparse(n.func)
        args=[par(e(a),91) for a in n.args]+[f'({k.arg} := {e(k.value)[0]})' for k in n.keywords]
        if f=='abs': return ('|'+e(n.args[0])[0]+'|',100)
        if f in FN: return act(f'{FN[f]} '+' '.join(args))
        if f in PURE:
            if not PURE[f]: return e(n.args[0])
            return (PURE[f]+' '+' '.join(args),90)
        return act(f'{f} '+' '.join(args))
    if isinstance(n,ast.Compare):
        ops={ast.Lt:'<',ast.LtE:'≤',ast.Gt:'>',ast.GtE:'≥',ast.Eq:'=',ast.NotEq:'≠',ast.In:'∈',ast.NotIn:'∉'}
        parts=[];l=n.left
        for op,r in zip(n.ops,n.comparators):
            if isinstance(op,(ast.Is,ast.IsNot)):
                parts.append(par(e(l),91)+('.isNone' if isinstance(op,ast.Is) else '.isSome'))
            else: parts.append(par(e(l),51)+' '+ops[type(op)]+' '+par(e(r),51))
            l=r
        if len(parts)==1: return (parts[0],50)
        return (' ∧ '.join(parts),35)
    if isinstance(n,ast.BoolOp):
        j=' ∧ ' if isinstance(n.op,ast.And) else ' ∨ '
        return (j.join(par(e(v),36) for v in n.values),35 if j==' ∧ ' else 30)
    if isinstance(n,ast.IfExp):
        return (f'if {e(n.test)[0]} then {e(n.body)[0]} else {e(n.orelse)[0]}',0)
    if isinstance(n,ast.Tuple): return ('('+', '.join(e(x)[0] for x in n.elts)+')',100)
    if isinstance(n,ast.List): return ('['+', '.join(e(x)[0] for x in n.elts)+']',100)
    if isinstance(n,ast.Subscript): return (par(e(n.value),100)+'['+e(n.slice)[0]+']',100)
    return ('«'+ast.unparse(n)+'»',100)
ORDER=[]
def conj(t):
    vs=t.values if isinstance(t,ast.BoolOp) and isinstance(t.op,ast.And) else [t]
    d={}
    for v in vs:
        if isinstance(v,ast.Compare) and len(v.ops)==1 and isinstance(v.ops[0],(ast.Is,ast.IsNot)) and isinstance(v.left,ast.Name) and isinstance(v.comparators[0],ast.Constant) and v.comparators[0].value is None:
            d[v.left.id]=isinstance(v.ops[0],ast.Is)
        else: return None
    return d
def chain(s):
    ch=[]
    while True:
        d=conj(s.test)
        if d is None: return None
        ch.append((d,s.body))
        if len(s.orelse)==1 and isinstance(s.orelse[0],ast.If): s=s.orelse[0]
        else: return ch,s.orelse
def stmts(body,ind,seen):
    out=[]
    pad='  '*ind
    for s in body:
        if isinstance(s,ast.Expr) and isinstance(s.value,ast.Constant): continue
        if isinstance(s,ast.Assign):
            t=s.targets[0]
            r=e(s.value)[0]
            tn=e(t)[0]
            if PEND and PEND[-1][0]==r:
                a=PEND.pop()[1]; out+=flush(pad); out.append(f'{pad}let {tn} ← {a}'); continue
            out+=flush(pad)
            out.append(f'{pad}let {tn} := {r}' if not re.fullmatch(r'[-\d.e /]+',r) else f'{pad}let {tn} : ℝ := {r}')
        elif isinstance(s,ast.AugAssign):
            op={ast.Add:'+',ast.Sub:'-',ast.Mult:'*',ast.Div:'/ₚ'}[type(s.op)]
            t=e(s.target)[0]
            v=par(e(s.value),71 if op in '*/ₚ' else 66); out+=flush(pad)
            if op=='/ₚ': out.append(f'{pad}let {t} ← {t} {op} {v}')
            else: out.append(f'{pad}let {t} := {t} {op} {v}')
        elif isinstance(s,ast.Return):
            r=e(s.value)[0]
            if PEND and PEND[-1][0]==r:
                a=PEND.pop()[1]; out+=flush(pad); out.append(f'{pad}{a}')
            else:
                out+=flush(pad); out.append(f'{pad}return {r}')
        elif isinstance(s,ast.If) and chain(s):
            ch,els=chain(s)
            ns=[]
            for t,_ in ch:
                for k in t: 
                    if k not in ns: ns.append(k)
            ns=[x for x in ORDER if x in ns]
            out.append(f'{pad}match '+', '.join(nm(x) for x in ns)+' with')
            for t,b in ch:
                out.append(f'{pad}| '+', '.join(('_' if x not in t else ('none' if t[x] else 'some '+nm(x))) for x in ns)+' =>'); out+=stmts(b,ind+1,seen)
            if els:
                out.append(f'{pad}| '+', '.join('_' for x in ns)+' =>'); out+=stmts(els,ind+1,seen)
        elif isinstance(s,ast.If):
            cur=s;kw='if';p2=pad;i2=ind
            while True:
                c=e(cur.test)[0]
                if PEND:
                    if kw!='if':
                        out.append(f'{p2}else'); i2+=1; p2='  '*i2; kw='if'
                    out+=flush(p2)
                out.append(f'{p2}{kw} {c} then'); out+=stmts(cur.body,i2+1,seen)
                if len(cur.orelse)==1 and isinstance(cur.orelse[0],ast.If):
                    cur=cur.orelse[0]; kw='else if'
                else:
                    if cur.orelse:
                        out.append(f'{p2}else'); out+=stmts(cur.orelse,i2+1,seen)
                    break
        elif isinstance(s,ast.Raise):
            x=ast.unparse(s.exc); out.append(f'{pad}.error .{x[0].lower()+x.split("(")[0][1:]}')
        else:
            out.append(f'{pad}-- {ast.unparse(s)}')
    return out
for f in tree.body:
    if isinstance(f,ast.FunctionDef) and (f.name in fns):
        a=f.args
        names=[x.arg for x in a.args]
        ORDER[:]=names; CNT[0]=0
        nd=len(names)-len(a.defaults)
        req=names[:nd]; opt=names[nd:]
        none=[x for x,d in zip(opt,a.defaults) if isinstance(d,ast.Constant) and d.value is None]
        first=next((s for s in f.body if not(isinstance(s,ast.Expr) and isinstance(s.value,ast.Constant))),f)
        sig=' '.join(nm(x) if x not in none else f'({nm(x)} : Option ℝ)' for x in names)
        defs={x:ast.unparse(d) for x,d in zip(opt,a.defaults)}
        dd=', '.join(f'{k} = {v}' for k,v in defs.items() if v!='None'); print(f'/-- {path}:{f.lineno}-{f.end_lineno} `{f.name}`.'+(f' Defaults: {dd}.' if dd else '')+' -/')
        print(f'def {f.name} ({" ".join(nm(x) for x in names if x not in none)} : ℝ)'+''.join(f' ({nm(x)} : Option ℝ)' for x in none)+' : Py ℝ := do')
        print('\n'.join(stmts(f.body,1,set())))
        print()
