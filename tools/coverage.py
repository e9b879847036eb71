#!/usr/bin/env python3
"""Which functions of /repo/sunspec are cited (file:lines) by a definition in the model."""
import ast, re, glob, os
files={}
for f in glob.glob('/repo/**/*.py', recursive=True):
    files[os.path.relpath(f,'/repo')]=f
cited={}
last=None
for lf in glob.glob('/verif/lean/Verif/**/*.lean', recursive=True):
    txt=open(lf).read()
    for m in re.finditer(r'((?:[\w]+/)*\w+\.py):((?:\d+(?:-\d+)?(?:, ?)?)+)', txt):
        name=m.group(1); 
        for r in re.findall(r'\d+(?:-\d+)?', m.group(2)):
            a,_,b=r.partition('-'); cited.setdefault(name,[]).append((int(a),int(b or a)))
def match(rel):
    out=[]
    for n,rs in cited.items():
        if rel.endswith('/'+n) or rel==n: out.append((n,rs))
    # longest suffix wins where ambiguous (client.py vs modbus/client.py)
    res=[]
    for n,rs in out:
        if n=='client.py' and 'modbus/' in rel: continue
        res+=rs
    return res
for rel,f in sorted(files.items()):
    rs=match(rel)
    src=open(f).read()
    try: t=ast.parse(src)
    except SyntaxError as e: print(rel,'SYNTAX',e); continue
    un=[];n=0
    def visit(node,pre):
        global n
        for c in ast.iter_child_nodes(node):
            if isinstance(c,ast.ClassDef): visit(c,pre+c.name+'.')
            elif isinstance(c,ast.FunctionDef):
                n+=1
                if not any(a<=c.end_lineno and b>=c.lineno for a,b in rs): un.append(f'{pre}{c.name}:{c.lineno}-{c.end_lineno}')
                visit(c,pre+c.name+'.')
    visit(t,'')
    print(f'{rel}: {n-len(un)}/{n} functions cited; not cited: {", ".join(un)}')
