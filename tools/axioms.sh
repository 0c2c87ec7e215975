#!/bin/sh
# Print the axioms every theorem of MANIFEST.json depends on (run after `lake build`); reports anything beyond Lean's three standard ones.
cd "$(dirname "$0")/../lean" || exit 1
t=$(mktemp /tmp/axXXXXXX.lean)
python3 - > "$t" <<'P'
import json
print("import Verif")
for c in json.load(open("../MANIFEST.json"))["claims"]:
    for n in c["theorems"]: print("#print axioms", n)
P
lake env lean "$t" > "$t.out" 2>&1
python3 - "$t.out" <<'P'
import re,sys
s=open(sys.argv[1]).read().replace("\n "," ")
ok={"propext","Classical.choice","Quot.sound"}
n=bad=0
for m in re.finditer(r"'(\S+)' (does not depend on any axioms|depends on axioms: \[([^\]]*)\])",s):
    n+=1
    ax=set(x.strip() for x in (m.group(3) or "").split(",") if x.strip())
    if not ax<=ok: bad+=1; print(m.group(1),sorted(ax-ok))
print(n,"theorems;",bad,"with further axioms;",s.count("error"),"errors")
P
rm -f "$t" "$t.out"
