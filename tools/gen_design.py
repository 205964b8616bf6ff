#!/usr/bin/env python3
"""Write DESIGN.md (head + how.json + status.json) and AXIOMS.md (from `#print axioms`)."""
import json, os, re, subprocess
root = os.path.dirname(os.path.dirname(os.path.abspath(__file__)))
os.chdir(root)
props = [json.loads(l) for l in open('properties.jsonl')]
status = json.load(open('tools/status.json'))
how = json.load(open('tools/how.json'))
man = {c['property']: c for c in json.load(open('MANIFEST.json'))['claims']}
out = open('tools/design_head.md').read()
out += "## Properties: what is modelled, how it is proved, what the code does\n\n"
for p in props:
    i = p['id']; s = status[i]
    out += f"### {i} {p['title']} ({s['status']})\n\n*Model and proof.* {how.get(i, '')}\n\n*Result.* {s['note']}\n\n"
    out += "*Theorems.* " + ", ".join('`' + t.split('.')[-1] + '`' for t in man[i]['theorems']) + "\n\n"
open('DESIGN.md', 'w').write(out.rstrip() + "\n")
names = [t for p in props for t in man[p['id']]['theorems']]
os.makedirs('/tmp/ax', exist_ok=True)
open('/tmp/ax/Ax.lean', 'w').write("import Verif\n" + "\n".join(f"#print axioms {n}" for n in names) + "\n")
r = subprocess.run(['lake', 'env', 'lean', '/tmp/ax/Ax.lean'], cwd='lean', capture_output=True, text=True).stdout
t = re.sub(r'\s+', ' ', r)
ax = {}
for m in re.finditer(r"'([^']+)' (?:depends on axioms: \[([^\]]*)\]|does not depend on any axioms)", t):
    ax[m.group(1)] = m.group(2) or 'none'
with open('AXIOMS.md', 'w') as f:
    f.write("# Axioms of the theorems in the manifest (`#print axioms`)\n\n| theorem | axioms |\n|---|---|\n")
    for n in names:
        f.write(f"| `{n}` | {ax.get(n, '?')} |\n")
print(len(names), 'theorems,', sum(1 for n in names if n not in ax), 'missing')
