#!/usr/bin/env python3
"""Regenerate MANIFEST.json from the theorem names in lean/Verif/Props and
tools/status.json (property -> [status, note])."""
import glob, json, os, re
root = os.path.dirname(os.path.dirname(os.path.abspath(__file__)))
thms = {}
for f in sorted(glob.glob(root + '/lean/Verif/Props/*.lean')):
    ns = []
    for line in open(f):
        m = re.match(r'namespace (\S+)', line)
        if m:
            ns.append(m.group(1)); continue
        m = re.match(r'end (\S+)', line)
        if m and ns and ns[-1] == m.group(1):
            ns.pop(); continue
        m = re.match(r'(?:@\[[^\]]*\] )?theorem ((C\d\d+)_\S+)', line)
        if m:
            thms.setdefault(m.group(2), []).append('.'.join(ns + [m.group(1)]))
status = json.load(open(root + '/tools/status.json'))
claims = []
for l in open(root + '/properties.jsonl'):
    p = json.loads(l)['id']
    if p in status and p in thms or (p in status and status[p][0] == 'not_applicable'):
        claims.append({'property': p, 'status': status[p][0], 'theorems': thms.get(p, []), 'note': status[p][1]})
    elif p in thms:
        print('no status for', p)
    else:
        print('no theorem for', p)
json.dump({'claims': claims}, open(root + '/MANIFEST.json', 'w'), indent=1)
