"""Functions of /repo/trumania and the model definitions whose comments cite their lines."""
import ast, collections, glob, os, re

cites = collections.defaultdict(list)  # basename -> [(a, b, lean file, def)]
for f in sorted(glob.glob('/verif/lean/Verif/Model/*.lean')):
    s = open(f).read()
    for m in re.finditer(r'/--(.*?)-/\s*(?:@\[[^\]]*\]\s*)?(?:def|structure|inductive|abbrev|instance|class)?\s*(\S+)', s, re.S):
        com, name = m.group(1), m.group(2)
        cur = None
        for t in re.finditer(r'([a-z_0-9]+\.py):|(\d+)(?:-(\d+))?', com):
            if t.group(1):
                cur = t.group(1)
            elif cur:
                a = int(t.group(2)); b = int(t.group(3) or a)
                cites[cur].append((a, b, os.path.basename(f)[:-5], name))

out, missing = [], []
for f in sorted(glob.glob('/repo/trumania/**/*.py', recursive=True)):
    tree = ast.parse(open(f).read())
    base = os.path.basename(f)
    def walk(node, prefix):
        for n in node.body:
            if isinstance(n, ast.ClassDef):
                walk(n, prefix + n.name + '.')
            elif isinstance(n, ast.FunctionDef):
                hit = sorted({f'{l}.{d}' for a, b, l, d in cites[base] if a <= n.end_lineno and b >= n.lineno})
                (out if hit else missing).append((f[6:], prefix + n.name, n.lineno, n.end_lineno, hit))
    walk(tree, '')
print('## cited'); 
for o in out: print(o[0], o[1], f'{o[2]}-{o[3]}', ', '.join(o[4]))
print('## not cited')
for o in missing: print(o[0], o[1], f'{o[2]}-{o[3]}')
