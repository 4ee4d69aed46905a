"""Writes the table of section 4 of DESIGN.md: axioms and place of every property theorem (run after `lake build`)."""
import collections, glob, os, re, subprocess, tempfile

names = collections.OrderedDict()
for f in sorted(glob.glob('/verif/lean/Verif/Props/*.lean')):
    for m in re.finditer(r'^theorem (C\d\d+_\w+)', open(f).read(), re.M):
        names[m.group(1)] = os.path.basename(f)[:-5]
with tempfile.NamedTemporaryFile('w', suffix='.lean', delete=False) as t:
    t.write('''import Verif
open Lean
run_cmd do
  let env ← getEnv
  for (n, _) in env.constants.map₁.toList do
    if let .str _ s := n then
      if s.length > 4 && s.startsWith "C" && (s.toList[1]!).isDigit && (s.toList[2]!).isDigit then
        let a ← Lean.collectAxioms n
        logInfo m!"AX {s} {a.toList}"
''')
out = subprocess.run(['lake', 'env', 'lean', t.name], cwd='/verif/lean', capture_output=True, text=True).stdout
os.unlink(t.name)
ax = {}
for m in re.finditer(r"AX (C\d\d+_\w+) \[([^\]]*)\]", out):
    if m.group(1) in names:
        ax[m.group(1)] = ', '.join(sorted(m.group(2).replace(',', ' ').split())) or 'none'
assert set(ax) == set(names), (set(names) - set(ax))
rows = ['| theorem | in `Props` | axioms |', '|---|---|---|']
for n in sorted(names, key=lambda n: (int(re.match(r'C(\d+)', n).group(1)), n)):
    rows.append(f'| `{n}` | `{names[n]}` | {ax[n]} |')
p = '/verif/DESIGN.md'
s = open(p).read()
i = s.index('<!-- axioms -->')
open(p, 'w').write(s[:i] + '<!-- axioms -->\n\n' + '\n'.join(rows) + '\n')
print(collections.Counter(ax.values()))
