"""Prints every axiom that some theorem of MANIFEST.json depends on. Run after `lake build`."""
import json, os, re, subprocess, tempfile
root = os.path.dirname(os.path.dirname(os.path.abspath(__file__)))
names = [t for c in json.load(open(os.path.join(root, 'MANIFEST.json')))['claims'] for t in c['theorems']]
src = 'import Verif\n' + ''.join(f'#print axioms {n}\n' for n in names)
with tempfile.NamedTemporaryFile('w', suffix='.lean', delete=False) as f:
    f.write(src)
out = subprocess.run(['lake', 'env', 'lean', f.name], cwd=os.path.join(root, 'lean'), capture_output=True, text=True).stdout
os.unlink(f.name)
found = set()
for m in re.finditer(r'depends on axioms: \[(.*?)\]', out, re.S):
    found |= {x.strip() for x in m.group(1).split(',')}
print(len(names), 'theorems', sorted(found))
print('\n'.join(l for l in out.split('\n') if 'error' in l))
