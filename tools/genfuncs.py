"""Generate Verif/Model/Fns*.lean: the functions of ConvertFix.py, PreProcess.py, PostProcess.py."""
import sys,os
sys.path.insert(0,os.path.dirname(__file__))
import pytrans
from pytrans import *
OUT='/verif/lean/Verif/Model/'
# written by hand below (HAND), with the calls they make
HAND={
('ConvertFix','OldPersianNumeral'):('''/-- ConvertFix.py:2254-2281; the forward direction is `Verif.oldPersianNumeral`. -/
def ConvertFix.OldPersianNumeral (reverse : Bool := false) : Gen Unit := do
  branch (!reverse)
    (native .oldPersianNumeral)
    (do
      replace (u! "𐏑") (u! "1#")
      replace (u! "𐏒") (u! "2#")
      replace (u! "𐏓") (u! "10#")
      replace (u! "𐏔") (u! "20#")
      replace (u! "𐏕") (u! "100#"))
''',[]),
('ConvertFix','KharoshthiNumerals'):('''/-- ConvertFix.py:2283-2309; the forward direction is `Verif.kharoshthiNumerals`. -/
def ConvertFix.KharoshthiNumerals (reverse : Bool := false) : Gen Unit := do
  branch (!reverse)
    (native .kharoshthiNumerals)
    (do
      replace (u! "𐩀") (u! "1#")
      replace (u! "𐩁") (u! "2#")
      replace (u! "𐩂") (u! "3#")
      replace (u! "𐩃") (u! "4#")
      replace (u! "𐩄") (u! "10#")
      replace (u! "𐩅") (u! "20#")
      replace (u! "𐩆") (u! "100#")
      replace (u! "𐩇") (u! "1000#"))
''',[]),
('PreProcess','KhmerWordSplit'):('''/-- PreProcess.py:213-222 (third-party word splitter: not modelled) -/
def PreProcess.KhmerWordSplit : Gen Unit := host .khmerSplit
''',[]),
('PreProcess','retainLatin'):('''/-- PreProcess.py:735-738: `latn_all`.  The lower-case and upper-case lists are concatenated without
a separating space, so the last lower-case and the first upper-case letter are glued (`ōA`). -/
def PreProcess.latn_all : List PyStr :=
  pySplit (u! "a b c d e f g h i j k l m n o p q r s t u v w x y z ḥ ṭ ṣ ʾ ʿ š ā ī ū ē ōA B C D E F G H I J K L M N O P Q R S T U V W X Y Z Ḥ Ṭ Ṣ ʾ ʿ Š Ā Ī Ū Ē Ō") (u! " ")

/-- PreProcess.py:734-751 -/
def PreProcess.retainLatin (reverse : Bool := false) : Gen Unit := do
  branch (!reverse)
    (do
      forEach (pyEnumerate PreProcess.latn_all) fun (i, c) => replace c [60929 + i]
      replace (u! "\\uEA01") (u! "r")
      replace (u! "\\uEA02") (u! "ʿ")
      replace (u! "\\uEA03") (u! "m")
      replace (u! "\\uEA04") (u! "q")
      replace (u! "\\uEA05") (u! "w")
      replace (u! "\\uEA06") (u! "d"))
    (forEach (pyEnumerate PreProcess.latn_all) fun (i, c) => replace [60929 + i] c)
''',[]),
('PreProcess','JapanesePreProcess'):('''/-- PreProcess.py:754-801 (third-party `pykakasi`: not modelled) -/
def PreProcess.JapanesePreProcess (src : PyStr) (preoptions : List PyStr) : Gen Unit :=
  host (.japanesePre src preoptions)
''',[]),
('PreProcess','removeZW'):('''/-- PreProcess.py:1669-1672: `str.replace` with one argument raises `TypeError`. -/
def PreProcess.removeZW : Gen Unit := fail .typeError
''',[]),
('PreProcess','IPAIndic'):('''/-- PreProcess.py:1790-1794: returns `None`, so the next operation on the text raises
`AttributeError` (simplification: raised here). -/
def PreProcess.IPAIndic : Gen Unit := fail .attributeError
''',[]),
('PostProcess','removeSegmentSpacesBurmese'):('''/-- PostProcess.py:539-546 (uses the `regex` module) -/
def PostProcess.removeSegmentSpacesBurmese : Gen Unit := do
  reSub (u! "(\\\\p{L}\\\\p{M}*) (\\\\p{L})") (u! "\\\\1\\\\2")
  reSub (u! "(\\\\p{L}\\\\p{M}*) (\\\\p{L})") (u! "\\\\1\\\\2")
''',[]),
('PostProcess','JapanesePostProcess'):('''/-- PostProcess.py:851- (`kana2roman`: not modelled) -/
def PostProcess.JapanesePostProcess (src tgt : PyStr) (nativize : Bool) (postoptions : List PyStr) : Gen Unit :=
  host (.japanesePost src tgt nativize postoptions)
''',[]),
('PostProcess','GranthaPrakrit'):('''/-- PostProcess.py:2427-2440 (rewrites its own matches: not modelled) -/
def PostProcess.GranthaPrakrit : Gen Unit := host .granthaPrakrit
''',[]),
('PostProcess','TaiThamMoveNnga'):('''/-- PostProcess.py:3467-3470: the computed text is dropped and the constant "Vinodh" returned. -/
def PostProcess.TaiThamMoveNnga : Gen Unit := do
  reSub (u! "(.)(ᩘ)") (u! "\\\\2\\\\1")
  setTo (u! "Vinodh")
''',[]),
('PostProcess','capitalizeSentence'):('''/-- PostProcess.py:3621-3633 (upper-cases its own matches: not modelled) -/
def PostProcess.capitalizeSentence : Gen Unit := host .capitalize
''',[]),
}
SKIP={('ConvertFix','lenSort'),('ConvertFix','kharoshthiNumber'),('ConvertFix','FixSemiticOutput'),('ConvertFix','FixIndicOutput')}
PATCH=[(('ConvertFix','FixRomanOutput'),'(pyJoin (u! "|") (t8 ++ t10))','(pyJoin (u! "|") (pyChars (t8 ++ t10)))'),
 (('ConvertFix','FixUrduShahmukhi'),'(pyJoin (u! "|") (t14 ++ t15))','(pyJoin (u! "|") (pyChars (t14 ++ t15)))'),
 (('ConvertFix','FixUrduShahmukhi'),'(pyList (pyRange 25 33))','[25, 26, 27, 28, 29, 30, 31, 32]'),
 (('ConvertFix','FixTibetan'),'(x ++ 80)','(x + 80)'),
 (('PostProcess','SinhalaDefaultConjuncts'),'index YR','indexChar YR'),
 (('ConvertFix','FixPhagsPa'),'(pyJoin (u! "") t6)','(pyJoin (u! "") (pyChars t6))'),
 (('ConvertFix','FixSharada'),'(pyJoin (u! "|") t3)','(pyJoin (u! "|") (pyChars t3))'),
 (None,'(sortByLenDesc GM.Consonants)','[.SinhalaConsonantMap, .SouthConsonantMap, .NuktaConsonantMap, .ConsonantMap]'),
 (None,'|| (u! "RussianCyrillic"))','|| true /- `or "RussianCyrillic"` is truthy -/)'),
 (None,'(x ++ 80)','(x + 80)'),
 (('PostProcess','ThaiSajjhayaOrthography'),"""      let cons_others := (u! "([ยรลวศษสหฬ])")
      pure cons_others)
    (do
      pure cons_others)""","""      let cons_others := (u! "([ยรลวศษสหฬ])")
      pure cons_others)
    (do
      pure [])"""),
 (('PostProcess','ThaiSajjhayaOrthography'),"""      let cons_others := (u! "([ຍຣລວຨຩສຫຬ])")
      pure cons_others)
    (do
      pure cons_others)""","""      let cons_others := (u! "([ຍຣລວຨຩສຫຬ])")
      pure cons_others)
    (branch (pyEq Script (u! "Thai")) (pure cons_others) (fail .nameError /- unbound local -/))""")]
def order(res):
    done=[];seen={}
    def visit(k,stack):
        if k in seen: 
            if seen[k]==1: raise Exception('cycle '+str(stack+[k]))
            return
        seen[k]=1
        for c in sorted(res[k][1]): visit(c,stack+[k])
        seen[k]=2; done.append(k)
    for k in res: visit(k,[])
    return done
def main():
    fns,res,fails=run()
    allres={}
    for k in fns:
        if k in res: allres[k]=(res[k][0],res[k][1])
        elif k in HAND: allres[k]=(HAND[k][0],set(HAND[k][1]))
        else: assert k in SKIP,k
    for k,a,b in PATCH:
        if k is None: k=[x for x in allres if a in allres[x][0]][0]
        t,c=allres[k]; assert a in t,(k,a); allres[k]=(t.replace(a,b),c)
    od=order(allres)
    for (m,n) in od: pass
    CH=40
    chunks=[od[i:i+CH] for i in range(0,len(od),CH)]
    for i,ch in enumerate(chunks):
        L=['import Verif.Model.Crunch']+([f'import Verif.Model.Fns{i-1}'] if i else [])
        L+=['','/-!','# Text functions of ConvertFix.py, PreProcess.py and PostProcess.py, part %d'%i,'','Generated by tools/genfuncs.py, in dependency order, one definition per Python function and one','line per statement.','-/','','set_option maxRecDepth 20000','set_option linter.unusedVariables false','','namespace Verif','']
        for k in ch: L.append(allres[k][0])
        L+=['end Verif','']
        open(OUT+f'Fns{i}.lean','w').write('\n'.join(L))
    for f in os.listdir(OUT):
        import re
        m=re.match(r'Fns(\d+)\.lean$',f)
        if m and int(m.group(1))>=len(chunks): os.remove(OUT+f)
    print(len(od),len(chunks))
    return fns,allres,chunks
if __name__=='__main__': main()
