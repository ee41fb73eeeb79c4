#!/usr/bin/env python3
"""Lists the functions of /repo and says which are cited in the model and which are anchors of a property."""
import ast, glob, json, os, re
model = "".join(open(f).read() for f in glob.glob('/verif/lean/Verif/Model/*.lean') + glob.glob('/verif/lean/Verif/Py/*.lean'))
anchors = set()
for l in open('/verif/properties.jsonl'):
    for a in json.loads(l)['anchors']:
        if ': ' in a:
            f, n = a.split(': ', 1)
            anchors.add((f, n.split('(')[0].strip()))
cited = {}
for m in re.finditer(r'(\w+\.py):(\d+)(?:-(\d+))?', model):
    cited.setdefault(m[1], []).append((int(m[2]), int(m[3] or m[2])))
for f in sorted(glob.glob('/repo/*.py')):
    b = os.path.basename(f)
    tree = ast.parse(open(f).read())
    def walk(n, pre):
        for c in n.body:
            if isinstance(c, ast.ClassDef): walk(c, pre + c.name + '.')
            elif isinstance(c, ast.FunctionDef):
                name = pre + c.name
                hit = any(a <= c.end_lineno and e >= c.lineno for a, e in cited.get(b, []))
                anc = (b, name) in anchors or (b, c.name) in anchors
                if not hit or not anc:
                    print(f'{b}:{c.lineno}-{c.end_lineno} {name}' + ('' if hit else ' NOT CITED') + ('' if anc else ' no anchor'))
    walk(tree, '')
