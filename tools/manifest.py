#!/usr/bin/env python3
"""Generate MANIFEST.json: statuses come from STATUS below, theorem names from the
Props modules (every `theorem Cnn_...` in lean/Verif/Props)."""
import json, re, glob, os
root = os.path.dirname(os.path.dirname(os.path.abspath(__file__)))
ths = {}
for f in sorted(glob.glob(root + '/lean/Verif/Props/*.lean')):
    for line in open(f):
        m = re.match(r'theorem ((C\d{2,3})_\S+)', line)
        if m:
            ths.setdefault(m.group(2), []).append('Copc.' + m.group(1))
notes = json.load(open(root + '/tools/notes.json'))
claims = []
for l in open(root + '/properties.jsonl'):
    p = json.loads(l)['id']
    if p in notes and p in ths:
        st, note = notes[p]
        claims.append({"property": p, "status": st, "theorems": ths[p], "note": note})
    elif p in ths:
        print('no note for', p)
    elif p in notes:
        print('note without theorem', p)
    else:
        print('not covered', p)
json.dump({"claims": claims}, open(root + '/MANIFEST.json', 'w'), indent=1)
