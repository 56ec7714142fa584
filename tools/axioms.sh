#!/bin/bash
# Lists the axioms every property theorem depends on: AXIOMS.txt.
cd "$(dirname "$0")/../lean" || exit 1
f=$(mktemp --suffix=.lean)
python3 - > "$f" <<'PY'
import json
m = json.load(open('../MANIFEST.json'))
print('import Verif')
for c in m['claims']:
    for t in c['theorems']:
        print(f'#print axioms {t}')
PY
lake env lean "$f" | python3 -c "
import sys, re
text = re.sub(r'\n\s+', ' ', sys.stdin.read())
print(text, end='')
" > ../AXIOMS.txt
rm -f "$f"
