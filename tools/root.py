"""Regenerate lean/Verif.lean: import every module under lean/Verif."""
import glob,os
R=os.path.dirname(os.path.dirname(os.path.abspath(__file__)))+"/lean/"
ms=[]
for d in ["Num","Model","Spec","Proofs","Props"]:
    for f in sorted(glob.glob(R+"Verif/"+d+"/**/*.lean",recursive=True)):
        ms.append(f[len(R):-5].replace("/","."))
open(R+"Verif.lean","w").write("".join("import %s\n"%m for m in ms))
