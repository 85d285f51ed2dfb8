import ast,json
def ev(n,env):
    if isinstance(n,ast.Constant): return n.value
    if isinstance(n,(ast.List,ast.Tuple)): return [ev(x,env) for x in n.elts]
    if isinstance(n,ast.Dict): return {ev(k,env):ev(v,env) for k,v in zip(n.keys,n.values)}
    if isinstance(n,ast.Set): return [ev(x,env) for x in n.elts]
    if isinstance(n,ast.Attribute): return "@"+n.attr
    if isinstance(n,ast.Name): return env.get(n.id,"@"+n.id)
    if isinstance(n,ast.UnaryOp): return -ev(n.operand,env)
    if isinstance(n,ast.JoinedStr): return "".join(str(ev(x,env)) for x in n.values)
    if isinstance(n,ast.FormattedValue): return ev(n.value,env)
    if isinstance(n,ast.Call):
        f=n.func.attr if isinstance(n.func,ast.Attribute) else n.func.id
        if f=="UUID": return ev(n.args[0],env)
        d={"__t":f}
        if n.args: d["__a"]=[ev(a,env) for a in n.args]
        for k in n.keywords: d[k.arg]=ev(k.value,env)
        return d
    return "@?"+ast.dump(n)[:60]
def mod(path):
    t=ast.parse(open(path).read()); env={}
    for s in t.body:
        if isinstance(s,ast.Assign) and isinstance(s.targets[0],ast.Name): env[s.targets[0].id]=ev(s.value,env)
        if isinstance(s,ast.AnnAssign): env[s.target.id]=ev(s.value,env)
    tests={}
    for c in t.body:
        fs=c.body if isinstance(c,ast.ClassDef) else [c]
        for f in fs:
            if isinstance(f,(ast.FunctionDef,ast.AsyncFunctionDef)):
                for d in f.decorator_list:
                    if isinstance(d,ast.Call) and isinstance(d.func,ast.Attribute) and d.func.attr=="parametrize":
                        try:
                            names=[x.strip() for x in ev(d.args[0],env).split(",")]
                            rows=ev(d.args[1],env)
                            tests[f.name]=[dict(zip(names,r["__a"] if isinstance(r,dict) else r)) for r in rows]
                        except Exception as x: tests[f.name]=repr(x)
    return env,tests
def clean(d):
    if isinstance(d,dict): return {k:clean(v) for k,v in d.items() if k!="__t"}
    if isinstance(d,list): return [clean(x) for x in d]
    return d
