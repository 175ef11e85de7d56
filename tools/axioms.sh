#!/bin/sh
# Writes AXIOMS.md: the axioms of every theorem named in MANIFEST.json, as Lean reports them.
cd "$(dirname "$0")/../lean" || exit 1
tmp=$(mktemp -d)
{ echo 'import Verif'
  python3 -c "
import json
for c in json.load(open('../MANIFEST.json'))['claims']:
    for t in c['theorems']: print('#print axioms', t)"
} > "$tmp/a.lean"
lake env lean "$tmp/a.lean" > "$tmp/out.txt" 2>&1
python3 - "$tmp/out.txt" > ../AXIOMS.md <<'PY'
import re,sys
t=open(sys.argv[1]).read()
print("# Axioms of the theorems in MANIFEST.json\n\nWritten by `tools/axioms.sh` from `#print axioms`.\n\n| Theorem | Axioms |\n|---|---|")
seen=set()
for n,a in re.findall(r"'([^']+)' depends on axioms: \[([^\]]*)\]",t):
    if n not in seen:
        seen.add(n); print("| `%s` | %s |"%(n,re.sub(r"\s+"," ",a)))
for n in re.findall(r"'([^']+)' does not depend on any axioms",t):
    if n not in seen:
        seen.add(n); print("| `%s` | none |"%n)
PY
