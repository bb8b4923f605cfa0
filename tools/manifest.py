"""Regenerates MANIFEST.json from the theorem names in lean/Verif/Props and the notes in tools/notes.json."""
import glob, json, os, re
root = os.path.dirname(os.path.dirname(os.path.abspath(__file__)))
props = [json.loads(l) for l in open(os.path.join(root, 'properties.jsonl')) if l.strip()]
notes = json.load(open(os.path.join(root, 'tools', 'notes.json')))
found = {}
for f in sorted(glob.glob(os.path.join(root, 'lean/Verif/Props/**/*.lean'), recursive=True)):
    for m in re.finditer(r'^(?:protected )?theorem ((C\d+)_[^\s:({\[]+)', open(f).read(), re.M):
        found.setdefault(m.group(2), []).append('DRT.' + m.group(1))
claims = []
for p in props:
    i = p['id']
    n = notes.get(i, {})
    t = found.get(i, [])
    if not t:
        st = n.get('status', None)
        if st is None:
            continue
    else:
        st = 'partial' if any(x.endswith(('_partial', '_false')) for x in t) else 'proved'
        st = n.get('status', st)
    claims.append({'property': i, 'status': st, 'theorems': t, 'note': n.get('note', '')})
json.dump({'claims': claims}, open(os.path.join(root, 'MANIFEST.json'), 'w'), indent=1, ensure_ascii=False)
print(len(claims), 'claims', sum(c['status'] == 'proved' for c in claims), 'proved')
missing = [p['id'] for p in props if p['id'] not in found and p['id'] not in notes]
print('missing', missing)
