"""Generate Verif/Model/Tables*.lean (letter tables), GM.lean (constants) from /repo as text."""
import sys,os
sys.path.insert(0,os.path.dirname(__file__))
from pytables import *
from pytrans import leanstr
SECS=['VowelMap','SouthVowelMap','ModernVowelMap','SinhalaVowelMap','VowelSignMap','SouthVowelSignMap','ModernVowelSignMap','SinhalaVowelSignMap','ViramaMap','AyogavahaMap','NuktaMap','ConsonantMap','SouthConsonantMap','NuktaConsonantMap','SinhalaConsonantMap','SignMap','NumeralMap','Aytham','OmMap']
OUT='/verif/lean/Verif/Model/'
def q(s): return leanstr(s)[4:-1]
def us(l): return 'us!['+', '.join(q(x) for x in l)+']'
def lid(n): return n.replace('-','_')
def strs(l,ind='  '):
    return us(l)
def main():
    mods,fb,fbl,gm,gml=load()
    names=[]
    for (d,n) in mods:
        if scriptdir(gm,n)==d: names.append((d,n))
    # some modules sit in a directory that ScriptPath does not use
    print('unused modules',[k for k in mods if k not in names])
    os.makedirs(OUT,exist_ok=True)
    # Sec
    L=['import Verif.Core.Prog','','/-!','# Letter-table sections and the shape of a script module','','Generated by tools/gentables.py.','-/','','namespace Verif','',
       '/-- The variables of a script module (ScriptMap/**/*.py). -/','inductive Sec where']
    L+=['  | '+s for s in SECS]
    L+=['  deriving Repr, DecidableEq','','/-- A script module: its letter lists. -/','structure Tbl where']
    for s in SECS: L+=[f'  /-- `{s}` -/',f'  {s} : List PyStr']
    L+=['  deriving Repr, DecidableEq','','/-- `getattr(module, name)` -/','def Tbl.get (t : Tbl) : Sec → List PyStr']
    L+=[f'  | .{s} => t.{s}' for s in SECS]
    L+=['','end Verif','']
    open(OUT+'Sec.lean','w').write('\n'.join(L))
    # tables, as written (Base) and extended
    CH=25
    chunks=[names[i:i+CH] for i in range(0,len(names),CH)]
    for kind in ('Base','Ext'):
        for ci,ch in enumerate(chunks):
            L=['import Verif.Model.Sec','','/-!']
            if kind=='Base': L+=['# Letter tables as written in /repo/aksharamukha/ScriptMap','']
            else: L+=['# Letter tables after `GeneralMap.add_additional_chars` (GeneralMap.py:297-338)','','Every script module calls it at import time; `Verif.Model.TablesEq` proves that these literals','are its result on the `Base` tables.','']
            L+=['Generated by tools/gentables.py.','-/','',f'namespace Verif.{kind}','']
            for d,n in ch:
                env,lines=mods[(d,n)]
                e=env if kind=='Base' else extend(env,n,fb,gm)
                L.append(f'/-- ScriptMap/{d}/{n}.py -/')
                L.append(f'def {lid(n)} : Tbl where')
                for s in SECS: L.append(f'  {s} := {us(e[s])}')
                L.append('')
            L+=[f'end Verif.{kind}','']
            open(OUT+f'{kind}Tables{ci}.lean','w').write('\n'.join(L))
    # registry
    L=['import Verif.Model.Sec']+[f'import Verif.Model.ExtTables{i}' for i in range(len(chunks))]+['','/-!','# Name lookup: `ScriptPath`, `CrunchSymbols`, `CrunchList` (GeneralMap.py:12-37)','','Generated by tools/gentables.py.','-/','','namespace Verif','',
    '/-- Script modules reachable through `ScriptPath` (GeneralMap.py:12-20), with their (extended) tables.','`RomanLoC` is listed in `GeneralMap.Roman` but has no module. -/','def scriptTables : List (PyStr × Tbl) := [']
    L.append(',\n'.join(f'  (u! "{n}", Ext.{lid(n)})' for d,n in names)+']')
    L+=['','end Verif','']
    open(OUT+'Tables.lean','w').write('\n'.join(L))
    open(OUT+'BaseRegistry.lean','w').write('\n'.join(['import Verif.Model.Sec']+[f'import Verif.Model.BaseTables{i}' for i in range(len(chunks))]+['','/-! Script modules as written, by name. Generated by tools/gentables.py. -/','','namespace Verif','','/-- Script modules as written, by name. -/','def baseTables : List (PyStr × Tbl) := [',',\n'.join(f'  (u! "{n}", Base.{lid(n)})' for d,n in names)+']','','end Verif','']))
    # GM constants
    L=['import Verif.Model.Sec','','/-!','# Constants of /repo/aksharamukha/GeneralMap.py','','Generated by tools/gentables.py.','-/','','namespace Verif.GM','']
    SECL=['Vowels','VowelSignsNV','VowelSigns','CombiningSigns','Consonants','Signs','Numerals','Aytham','om','virama','Characters','CharactersNV']
    for k in SECL:
        L+=[f'/-- GeneralMap.py:{gml[k][0]}-{gml[k][1]} -/',f'def {k} : List Sec := ['+', '.join('.'+x for x in gm[k])+']','']
    LST=['MainIndic','EastIndic','NonIndic','Roman','RomanDiacritic','VedicSvarasList','Diacritics','DiacriticsRemovable','DiacriticsRemovableTamil','ScriptAll','IndicScripts','SiddhamRanjana','LatinScripts','pipeScripts','Transliteration','romanNumeralScripts','romanPunctscripts','LoCScripts','LocPostPre','LoCSrcMap','LoCTgtMap','LoCTgtISO','SemiticScripts','SemiticConsonants','SemiticVowels','semiticVowelsAll','vowelsInitialAll','ReversibleScripts','RomanReversible','CharmapLists']
    for k in LST:
        L+=[f'/-- GeneralMap.py:{gml[k][0]}-{gml[k][1]} -/',f'def {k} : List PyStr := {us(gm[k])}','']
    for k in ['VedicSvaras','Inter']:
        L+=[f'/-- GeneralMap.py:{gml[k][0]}-{gml[k][1]} -/',f'def {k} : PyStr := {leanstr(gm[k])}','']
    for k in ['Gemination','semiticISO','InterAdd']:
        L+=[f'/-- GeneralMap.py:{gml[k][0]}-{gml[k][1]} -/',f'def {k} : List (PyStr × PyStr) := ['+', '.join(f'({leanstr(a)}, {leanstr(b)})' for a,b in gm[k].items())+']','']
    for k in ['LoCTgtPostOptions','LoCTgtPreOptions','LoCSrcPostOptions','LoCSrcPreOptions']:
        L+=[f'/-- GeneralMap.py:{gml[k][0]}-{gml[k][1]} -/',f'def {k} : List (PyStr × List PyStr) := ['+', '.join(f'({leanstr(a)}, {us(b)})' for a,b in gm[k].items())+']','']
    L+=['end Verif.GM','']
    open(OUT+'GM.lean','w').write('\n'.join(L))
    # FallBack
    L=['import Verif.Model.Sec','','/-!','# /repo/aksharamukha/FallBack.py','','Generated by tools/gentables.py.  The key (a comment-like label) of an entry is kept; an entry maps script','names to letters, and `OthersRev`/`OthersNonRev` to an index (−1: none) with an optional second part.','-/','','namespace Verif.FB','',
    '/-- A fall-back rule `[index]`, `[index, second]`; `nukta` means "the script\'s nukta". -/','structure Other where','  /-- index into the list being extended, or -1 -/','  idx : Int','  /-- the second element, if any -/','  second : Option PyStr','','/-- One FallBack entry. -/','structure Entry where','  /-- the key -/','  key : PyStr','  /-- letters given per script -/','  given : List (PyStr × PyStr)','  /-- rule for scripts in `ReversibleScripts` -/','  othersRev : Other','  /-- rule for the other scripts -/','  othersNonRev : Other','']
    for cl in gm['CharmapLists']:
        L+=[f'/-- FallBack.py:{fbl[cl][0]}-{fbl[cl][1]} -/',f'def {cl} : List Entry := [']
        items=[]
        for k,mp in fb[cl].items():
            def oth(o):
                assert isinstance(o[0],int) and len(o)<=2, o
                sec='none' if len(o)==1 else f'some {leanstr(o[1])}'
                return f'⟨{o[0]}, {sec}⟩'
            for kk,vv in mp.items():
                if kk not in('OthersRev','OthersNonRev'): assert isinstance(vv,str),(k,kk,vv)
            giv=', '.join(f'({leanstr(a)}, {leanstr(b)})' for a,b in mp.items() if a not in('OthersRev','OthersNonRev'))
            items.append(f'  ⟨{leanstr(str(k))}, [{giv}],\n    {oth(mp["OthersRev"])}, {oth(mp["OthersNonRev"])}⟩')
        L+=[',\n'.join(items)+']','']
    L+=['end Verif.FB','']
    open(OUT+'FallBack.lean','w').write('\n'.join(L))
    print(len(names),len(chunks))
main()
