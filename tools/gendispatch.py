"""Generate Verif/Model/Dispatch.lean: the name-to-function tables behind getattr/globals()."""
import sys,os
sys.path.insert(0,os.path.dirname(__file__))
import genfuncs,ast,io,contextlib
fns,allres,chunks=genfuncs.main()
SPECIAL_RET={}
def gm(name):
    t=ast.parse(open('/repo/aksharamukha/GeneralMap.py').read())
    for n in t.body:
        if isinstance(n,ast.Assign) and n.targets[0].id==name: v=n.value
    return v
import gentables
def scripts(name):
    import re
    s=open('/verif/lean/Verif/Model/GM.lean').read()
    m=re.search(r'^def %s : List PyStr := us!\[(.*)\]$'%name,s,re.M)
    return re.findall(r'"([^"]*)"',m.group(1))
I=scripts('IndicScripts');La=scripts('LatinScripts');S=scripts('SemiticScripts')
assert not set(I)&set(La) and not set(I)&set(S) and not set(La)&set(S), (set(I)&set(La),set(I)&set(S),set(La)&set(S))
L=['import Verif.Model.Fns%d'%(len(chunks)-1),'','/-!','# Lookup of functions by name','','Generated by tools/gendispatch.py.','-/','','set_option maxRecDepth 20000','','namespace Verif','']
q=lambda s:'(u! "%s")'%s
rows=[]
for s in dict.fromkeys(I+La):
    k=('ConvertFix','Fix'+s)
    if k in fns:
        n=fns[k]; a=[x.arg for x in n.args.args]
        assert a[:2]==['Strng','reverse'] and len(n.args.defaults)==len(a)-1,(k,a)
        rows.append(f'({q(s)}, fun b => ConvertFix.Fix{s} b)')
L+=['/-- `getattr(CF, "Fix" + script)(Strng, reverse = b)` (Convert.py:63, 154, 177, 231) and','`globals()["Fix" + script](Strng)` (ConvertFix.py:373) for the scripts that have a `Fix` function','(b = False is the default). -/','def fixIndicFns : List (PyStr × (Bool → Gen Unit)) := [','  '+',\n  '.join(rows)+']','']
rows=[]
for s in dict.fromkeys(S):
    nm='Fix'+s.replace('-','_')
    k=('ConvertFix',nm)
    if k in fns:
        n=fns[k]; a=[x.arg for x in n.args.args]
        assert a==['Strng','Source','reverse'] and len(n.args.defaults)==1,(k,a)
        rows.append(f'({q(s)}, fun source b => ConvertFix.{nm} source b)')
L+=['/-- `getattr(CF, "Fix" + script.replace("-", "_"))(Strng, source, reverse = b)` (Convert.py:290, 342)','and `globals()["Fix" + ...](Strng, source)` (ConvertFix.py:358). -/','def fixSemiticFns : List (PyStr × (PyStr → Bool → Gen Unit)) := [','  '+',\n  '.join(rows)+']','']
for mod,nm in [('PreProcess','pre'),('PostProcess','post')]:
    names=sorted(n for m,n in fns if m==mod)
    rows=[]
    for n in names:
        f=fns[(mod,n)]; req=len(f.args.args)-len(f.args.defaults)
        a=[x.arg for x in f.args.args]
        if req==1: rows.append(f'({q(n)}, {mod}.{n})')
        else: rows.append(f'({q(n)}, fail .typeError)')
    L+=[f'/-- The functions of {mod}.py by name, sorted as by `getmembers`, applied to the text alone','(`TypeError` for those that need more arguments). -/',f'def {nm}Fns : List (PyStr × Gen Unit) := [','  '+',\n  '.join(rows)+']','']
L+=['end Verif','']
open('/verif/lean/Verif/Model/Dispatch.lean','w').write('\n'.join(L))
