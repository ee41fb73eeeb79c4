import re,ast,glob
defs={}
for f in glob.glob('/repo/*.py'):
    try:t=ast.parse(open(f).read())
    except Exception as e: print(f,e); continue
    for n in ast.walk(t):
        if isinstance(n,(ast.FunctionDef,ast.ClassDef)):
            defs.setdefault((f.split('/')[-1],n.name),[]).append((n.lineno,n.end_lineno))
bad=0
for m in sorted(glob.glob('/verif/lean/Verif/**/*.lean',recursive=True)):
    s=open(m).read()
    for x in re.finditer(r'(\w+\.py):(\d+)(?:-(\d+))? `(\w+)`',s):
        f,a,b,n=x.groups(); a=int(a); b=int(b or a)
        ds=defs.get((f,n))
        if not ds: print(m,x.group(0),'no def'); bad+=1; continue
        if not any(c<=a and b<=d for c,d in ds): print(m,x.group(0),ds); bad+=1
    for x in re.finditer(r'(\w+\.py):(\d+)(?:-(\d+))?',s):
        f,a,b=x.groups()
        import os
        if not os.path.exists('/repo/'+f): print(m,x.group(0),'nofile'); continue
        L=len(open('/repo/'+f).read().split('\n'))
        if int(b or a)>L: print(m,x.group(0),'past end')
print(bad)
