#!/bin/sh
# Regenerate AXIOMS.txt: the axioms of every theorem of MANIFEST.json (run after lake build).
cd "$(dirname "$0")/.." || exit 1
t=$(mktemp -d)
python3 - > "$t/a.lean" <<'P'
import json
print('import Verif')
for c in json.load(open('MANIFEST.json'))['claims']:
    for x in c['theorems']:
        print('#print axioms', x)
P
(cd lean && lake env lean "$t/a.lean") | tr '\n' ' ' | sed "s/ '/\n'/g; s/\] /]\n/g" | sed '/^$/d; s/  */ /g; s/ $//' > AXIOMS.txt
echo >> AXIOMS.txt
sed -i '/^$/d' AXIOMS.txt
rm -r "$t"
wc -l AXIOMS.txt
