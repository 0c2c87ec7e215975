"""Regenerates MANIFEST.json and lean/Verif.lean from the property theorems in lean/Verif/Props."""
import json,re,glob,os
root=os.path.dirname(os.path.dirname(os.path.abspath(__file__)))
notes=json.load(open(root+"/tools/notes.json"))
thms={}
docs={}
mods=[]
for f in sorted(glob.glob(root+"/lean/Verif/Props/*.lean")):
    mods.append("Verif.Props."+os.path.basename(f)[:-5])
    for m in re.finditer(r"^theorem (C(\d\d\d?)_\w+)",open(f).read(),re.M):
        thms.setdefault("C"+m.group(2),[]).append("CT."+m.group(1))
    for m in re.finditer(r"/--((?:(?!-/).)*?)-/\s*theorem (C\d\d\d?_\w+)",open(f).read(),re.S):
        docs["CT."+m.group(2)]=" ".join(m.group(1).replace("*","").split())
open(root+"/lean/Verif.lean","w").write("".join(f"import {m}\n" for m in mods))
claims=[]
for line in open(root+"/properties.jsonl"):
    p=json.loads(line)["id"]
    n=notes.get(p,{})
    t=thms.get(p,[])
    if not t:
        st="not_applicable" if n.get("na") else None
        if st is None: continue
    else:
        st="partial" if any("_partial" in x or "_violated" in x for x in t) else "proved"
    full=[x for x in t if not ("_partial" in x or "_violated" in x)]
    part=[x for x in t if "_partial" in x]
    viol=[x for x in t if "_violated" in x]
    note=n.get("note","")
    if st=="partial":
        bits=[]
        if viol: bits.append("The property as stated is false of the code at this commit; that too is proved. Refuted: "+" ".join(f"({x[3:]}) {docs.get(x,'')}" for x in viol))
        if part: bits.append("Proved part: "+" ".join(f"({x[3:]}) {docs.get(x,'')}" for x in part))
        if full: bits.append("Further theorems, see their statements: "+", ".join(x[3:] for x in full)+".")
        note=(note+" " if note else "")+" ".join(bits)
    elif not note: note=" ".join(f"({x[3:]}) {docs.get(x,'')}" for x in full)
    claims.append({"property":p,"status":n.get("status",st),"theorems":t,"note":note})
json.dump({"claims":claims},open(root+"/MANIFEST.json","w"),indent=1)
have={c["property"] for c in claims}
print(len(claims),"claims; unclaimed:",[json.loads(l)["id"] for l in open(root+"/properties.jsonl") if json.loads(l)["id"] not in have])
print("theorems without a property:",[k for k in thms if k not in have])
