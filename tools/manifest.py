"""Regenerate MANIFEST.json: the theorems are those named C<nn>_... in lean/Verif/Props."""
import json,re,glob,os
ROOT=os.path.dirname(os.path.dirname(os.path.abspath(__file__)))
NOTES=json.load(open(ROOT+"/tools/notes.json"))
thms={}
for f in sorted(glob.glob(ROOT+"/lean/Verif/Props/*.lean")):
    ns=[]
    for l in open(f):
        m=re.match(r"namespace (\S+)",l)
        if m: ns.append(m.group(1))
        m=re.match(r"end (\S+)",l)
        if m and ns and ns[-1]==m.group(1): ns.pop()
        m=re.match(r"theorem ((C\d\d\d?)_\S+)",l)
        if m: thms.setdefault(m.group(2),[]).append(".".join(ns+[m.group(1)]))
claims=[]
for l in open(ROOT+"/properties.jsonl"):
    i=json.loads(l)["id"]
    t=thms.get(i,[])
    n=NOTES.get(i,{})
    if not t and not n: continue
    claims.append(dict(property=i,status=n.get("status","proved"),theorems=t,note=n.get("note","")))
json.dump({"claims":claims},open(ROOT+"/MANIFEST.json","w"),indent=1,ensure_ascii=False)
print(len(claims),"claims",sum(len(c["theorems"]) for c in claims),"theorems")
