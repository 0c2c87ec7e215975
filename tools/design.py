"""Assembles DESIGN.md from design_head.md, the property list, how.json and design_tail.md."""
import json,os
root=os.path.dirname(os.path.dirname(os.path.abspath(__file__)))
R=lambda f:open(root+"/tools/"+f).read()
P=[json.loads(l) for l in open(root+"/properties.jsonl")]
M={c["property"]:c for c in json.load(open(root+"/MANIFEST.json"))["claims"]}
how=json.loads(R("how.json"))
out=[R("design_head.md"),"\n## 4. Per property\n\n| id | property | model | proof | status |\n|----|----|----|----|----|\n"]
for p in P:
    m,h=how[p["id"]]
    c=M.get(p["id"])
    out.append("| %s | %s | `%s` | %s | %s |\n"%(p["id"],p["title"],m,h,c["status"] if c else "not claimed"))
out.append(R("design_tail.md"))
open(root+"/DESIGN.md","w").write("".join(out))
