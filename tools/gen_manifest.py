"""Write MANIFEST.json: every theorem named Cnn_... under lean/Verif is listed with its property.
Notes and the status come from the table below (default: proved)."""
import json, re, glob, os
root = os.path.join(os.path.dirname(__file__), '..')
thms = {}
for f in sorted(glob.glob(os.path.join(root, 'lean/Verif/**/*.lean'), recursive=True)):
    text = open(f).read()
    ns = re.search(r'^namespace (\S+)', text, re.M)
    for m in re.finditer(r'^(?:private )?theorem (C(\d+)_\w+)', text, re.M):
        thms.setdefault('C' + m.group(2), []).append(ns.group(1) + '.' + m.group(1))
NOTES = json.load(open(os.path.join(root, 'tools/notes.json')))
props = [json.loads(l) for l in open(os.path.join(root, 'properties.jsonl'))]
claims = []
for p in props:
    i = p['id']
    t = thms.get(i, [])
    n = NOTES.get(i, {})
    st = n.get('status', 'proved' if t else None)
    if st is None:
        print('no theorem yet:', i, p['title']); continue
    claims.append(dict(property=i, status=st, theorems=t, note=n.get('note', '')))
extra = set(thms) - {p['id'] for p in props}
if extra: print('theorems without property:', extra)
json.dump({'claims': claims}, open(os.path.join(root, 'MANIFEST.json'), 'w'), indent=1)
print(len(claims), 'claims', sum(len(c['theorems']) for c in claims), 'theorems')
