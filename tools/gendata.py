"""Generate Verif/Model/GimeltraData.lean and YamlData.lean from the JSON and YAML files of /repo."""
import sys,os,json,re
sys.path.insert(0,os.path.dirname(__file__))
from pytrans import leanstr
R='/repo/aksharamukha/'; OUT='/verif/lean/Verif/Model/'
q=leanstr
d=json.load(open(R+'json/gimeltra_data.json',encoding='utf-8'))
def pairs(x): return '['+', '.join(f'({q(a)}, {q(b)})' for a,b in x.items())+']'
L=['import Verif.Core.Str','','/-!','# The data of json/gimeltra_data.json','','Generated by tools/gendata.py.  Dictionaries are association lists in insertion order.','-/','','set_option maxRecDepth 100000','','namespace Verif.Gim','']
names=[]
for a in d['ssub']:
    for b in d['ssub'][a]:
        nm='ssub_%s_%s'%(a.replace('-','_'),b.replace('-','_')); names.append((a,b,nm))
        L+=[f'/-- json/gimeltra_data.json `ssub.{a}.{b}` -/',f'def {nm} : List (PyStr × PyStr) := {pairs(d["ssub"][a][b])}','']
L+=['/-- json/gimeltra_data.json `ssub` -/','def ssub : List (PyStr × List (PyStr × List (PyStr × PyStr))) := [']
L+=['  '+',\n  '.join('(%s, [%s])'%(q(a),', '.join('(%s, %s)'%(q(b),nm) for (x,b,nm) in names if x==a)) for a in d['ssub'])+']','']
for k in ['ccmp','fina','liga']:
    L+=[f'/-- json/gimeltra_data.json `{k}` -/',f'def {k} : List (PyStr × List (PyStr × PyStr)) := ['+', '.join(f'({q(a)}, {pairs(x)})' for a,x in d[k].items())+']','']
L+=['/-- json/gimeltra_data.json `simp.general` -/',f'def simplify : List (PyStr × PyStr) := {pairs(d["simp"]["general"])}','','end Verif.Gim','']
open(OUT+'GimeltraData.lean','w').write('\n'.join(L))
def two(path,i1,i2):
    # the nested keys of interest by indentation (no flow syntax in these files)
    d={}; a=None; b=None
    for l in open(R+'yaml/'+path,encoding='utf8'):
        m=re.match(r'^( *)([A-Za-z0-9_-]+):(?: (.*))?$',l.rstrip('\n'))
        if not m: continue
        ind,key,val=len(m.group(1)),m.group(2),(m.group(3) or '').strip()
        yield ind,key,val
y={};cur=None
for ind,key,val in two('aksharamukha-scripts.yaml',0,2):
    if ind==0: assert key not in y; cur=y[key]={}
    elif ind==2: cur[key]=val; assert not re.match(r'["\'&*]|(?i:no|yes|on|off|true|false|y|n)$',val) or key not in('script','lang'),(key,val)
w={};cur=None
for ind,key,val in two('wikitra2-data.yaml',0,4):
    if ind==0: assert key not in w; cur=w[key]={}
    elif ind==4: assert key not in cur; cl=cur[key]={}
    elif ind==8 and key=='population': cl[key]=int(val)
used={v['script'] for v in y.values()}
print('yaml scripts',len(y),'wiki tags',len(w),'used',len(used&set(w)), [v for v in y.values() if 'script' not in v])
L=['import Verif.Core.Str','','/-!','# The data of yaml/aksharamukha-scripts.yaml and yaml/wikitra2-data.yaml','','Generated by tools/gendata.py.  Only the fields the code reads.','-/','','set_option maxRecDepth 100000','','namespace Verif.Yaml','',
'/-- One entry of yaml/aksharamukha-scripts.yaml. -/','structure Script where','  /-- the key -/','  name : PyStr','  /-- `script` -/','  tag : PyStr','  /-- `lang`, if present -/','  lang : Option PyStr','',
'/-- yaml/aksharamukha-scripts.yaml, in file order -/','def scripts : List Script := [',
'  '+',\n  '.join('⟨%s, %s, %s⟩'%(q(k),q(v['script']),'some %s'%q(v['lang']) if 'lang' in v else 'none') for k,v in y.items())+']','']
L+=['/-- yaml/wikitra2-data.yaml: for each script tag the language tags and their `population`.','A key that YAML does not read as a string (`no`) is written `?`: it equals no language tag. -/','def wiki : List (PyStr × List (PyStr × Nat)) := [']
rows=[]
for k,v in w.items():
    e=[]
    for l,x in v.items():
        p=x.get('population') if isinstance(x,dict) else None
        if p is None: print('no population',k,l); p=0
        if not isinstance(p,int): print('odd',k,l,p)
        e.append('(%s, %d)'%(q(l) if isinstance(l,str) else q('?'),p))
    rows.append('(%s, [%s])'%(q(k),', '.join(e)))
L+=['  '+',\n  '.join(rows)+']','','end Verif.Yaml','']
open(OUT+'YamlData.lean','w').write('\n'.join(L))
