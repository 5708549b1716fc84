"""Writes AXIOMS.md: the axioms each property theorem depends on (needs a finished `lake build`)."""
import subprocess, os, tempfile, re, collections
here = os.path.dirname(os.path.dirname(os.path.abspath(__file__)))
src = r'''import Lean
import Verif
open Lean Elab Command
run_cmd do
  let env ← getEnv
  for (n, ci) in env.constants.map₁.toList do
    if let .thmInfo _ := ci then
      if (`Verif.Props).isPrefixOf n then
        let ax ← liftCoreM (collectAxioms n)
        logInfo m!"AX {n} {(ax.qsort Name.lt).toList}"
'''
with tempfile.NamedTemporaryFile('w', suffix='.lean', delete=False) as f: f.write(src)
out = subprocess.run(['lake', 'env', 'lean', f.name], cwd=os.path.join(here, 'lean'), capture_output=True, text=True).stdout
out = re.sub(r',\s*\n\s*', ', ', out)
by = collections.defaultdict(list)
for m in re.finditer(r'AX Verif\.Props\.((?:\w+\.)*C\d\d\d?_\w+)\s+\[([^\]]*)\]', out):
    by[re.sub(r'\s+', ' ', m.group(2))].append(m.group(1))
with open(os.path.join(here, 'AXIOMS.md'), 'w') as g:
    g.write('# Axioms of the property theorems\n\nGenerated by tools/axioms.py with Lean\'s `collectAxioms`. All are axioms of Lean itself; the project adds none.\n')
    for k in sorted(by):
        g.write('\n## %s (%d theorems)\n\n%s\n' % (k or 'none', len(by[k]), ', '.join(sorted(by[k]))))
print({k: len(v) for k, v in by.items()})
