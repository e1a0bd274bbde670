#!/usr/bin/env python3
"""Regenerate MANIFEST.json from the theorem names in lean/Verif/Props and the notes below."""
import re, json, glob, os
root = os.path.dirname(os.path.dirname(os.path.abspath(__file__)))
notes = {}
exec(open(os.path.join(root, 'tools', 'notes.py')).read(), notes)
NOTES = notes['NOTES']
thms = {}
for f in sorted(glob.glob(root + '/lean/Verif/Props/*.lean')):
    for m in re.finditer(r'^theorem (C\d\d+)(\S*)', open(f).read(), re.M):
        thms.setdefault(m.group(1), []).append('Pyogp.' + m.group(1) + m.group(2))
claims = []
for line in open(root + '/properties.jsonl'):
    pid = json.loads(line)['id']
    ts = thms.get(pid, [])
    if not ts: continue
    st, note = NOTES.get(pid, ('proved', ''))
    claims.append({'property': pid, 'status': st, 'theorems': ts, 'note': note})
json.dump({'claims': claims}, open(root + '/MANIFEST.json', 'w'), indent=1, ensure_ascii=False)
print({c['property']: len(c['theorems']) for c in claims})
