import Verif.Model.Crunch
import Verif.Model.Fns2

/-!
# Text functions of ConvertFix.py, PreProcess.py and PostProcess.py, part 3

Generated by tools/genfuncs.py, in dependency order, one definition per Python function and one
line per statement.
-/

set_option maxRecDepth 20000
set_option linter.unusedVariables false

namespace Verif

/-- ConvertFix.py:3318-3336 -/
def ConvertFix.FixThamLoC (reverse : Bool := false) : Gen Unit := do
  ConvertFix.FixTaiTham reverse
  let t1 ← crunchSymbols GM.Consonants (u! "TaiTham")
  let ListC := (pyJoin (u! "|") t1)
  branch (!reverse)
    (do
      let E := (u! "ᩮ")
      let AA := (u! "ᩣ")
      let TallACons := (pyJoin (u! "|") [(u! "ᩅ"), (u! "ᨴ"), (u! "ᨵ"), (u! "ᨣ"), (u! "ᨷ")])
      reSub (((((((((u! "(") ++ TallACons) ++ (u! ")(᩠)(")) ++ ListC) ++ (u! ")")) ++ (u! "(")) ++ E) ++ (u! "?)")) ++ AA) ((u! "\\1\\2\\3\\4") ++ (u! "ᩤ"))
      reSub ((((((((((((u! "(") ++ TallACons) ++ (u! ")(᩠)(")) ++ ListC) ++ (u! ")")) ++ (u! "(᩠)(")) ++ ListC) ++ (u! ")")) ++ (u! "(")) ++ E) ++ (u! "?)")) ++ AA) ((u! "\\1\\2\\3\\4\\5\\6") ++ (u! "ᩤ"))
      whenDyn (.has (u! "ʾ"))
        (do
          replace (u! "᩺") (u! "᩼")
          replace (u! "ʾ") (u! "")
          pure ())
        (do
          pure ())
      pure ())
    (do
      replace (u! "ᩜ") (u! "᩺ᨾ")
      replace (u! "ᩛ") (u! "᩺ᨻ")
      pure ())
  pure ()

/-- ConvertFix.py:3338-3351 -/
def ConvertFix.FixLueTham (reverse : Bool := false) : Gen Unit := do
  ConvertFix.FixTaiTham reverse
  let t1 ← crunchSymbols GM.Consonants (u! "TaiTham")
  let ListC := (pyJoin (u! "|") t1)
  branch (!reverse)
    (do
      let E := (u! "ᩮ")
      let AA := (u! "ᩣ")
      let TallACons := (pyJoin (u! "|") [(u! "ᩅ"), (u! "ᨴ"), (u! "ᨵ"), (u! "ᨣ")])
      reSub (((((((((u! "(") ++ TallACons) ++ (u! ")(᩠)(")) ++ ListC) ++ (u! ")")) ++ (u! "(")) ++ E) ++ (u! "?)")) ++ AA) ((u! "\\1\\2\\3\\4") ++ (u! "ᩤ"))
      reSub ((((((((((((u! "(") ++ TallACons) ++ (u! ")(᩠)(")) ++ ListC) ++ (u! ")")) ++ (u! "(᩠)(")) ++ ListC) ++ (u! ")")) ++ (u! "(")) ++ E) ++ (u! "?)")) ++ AA) ((u! "\\1\\2\\3\\4\\5\\6") ++ (u! "ᩤ"))
      pure ())
    (do
      pure ())
  pure ()

/-- ConvertFix.py:3353-3370 -/
def ConvertFix.FixKhuenTham (reverse : Bool := false) : Gen Unit := do
  ConvertFix.FixTaiTham reverse
  let t1 ← crunchSymbols GM.Consonants (u! "TaiTham")
  let ListC := (pyJoin (u! "|") t1)
  branch (!reverse)
    (do
      let E := (u! "ᩮ")
      let AA := (u! "ᩣ")
      let TallACons := (pyJoin (u! "|") [(u! "ᩅ"), (u! "ᨴ"), (u! "ᨵ"), (u! "ᨣ")])
      reSub (((((((((u! "(") ++ TallACons) ++ (u! ")(᩠)(")) ++ ListC) ++ (u! ")")) ++ (u! "(")) ++ E) ++ (u! "?)")) ++ AA) ((u! "\\1\\2\\3\\4") ++ (u! "ᩤ"))
      reSub ((((((((((((u! "(") ++ TallACons) ++ (u! ")(᩠)(")) ++ ListC) ++ (u! ")")) ++ (u! "(᩠)(")) ++ ListC) ++ (u! ")")) ++ (u! "(")) ++ E) ++ (u! "?)")) ++ AA) ((u! "\\1\\2\\3\\4\\5\\6") ++ (u! "ᩤ"))
      replace (u! "᩺") (u! "᩼")
      pure ())
    (do
      replace (u! "᩼") (u! "᩺")
      pure ())
  pure ()

/-- PostProcess.py:2673-2686 -/
def PostProcess.KhandaTa (Target : PyStr) (reverse : Bool := false) : Gen Unit := do
  let t1 ← crunchSymbols GM.Consonants Target
  let t2 ← index t1 15
  let ta := t2
  let khandata := (u! "ৎ")
  let t3 ← crunchSymbols GM.VowelSigns Target
  let t4 ← index t3 0
  let vir := t4
  let t7 ← pmap [15, 16, 19, 27, 24, 25, 26, 28] fun x => (do let t5 ← crunchList .ConsonantMap Target; let t6 ← index t5 x; pure t6)
  let ListC := (pyJoin (u! "|") (t7 ++ [(u! "ব"), (u! "ৰ"), (u! "য়")]))
  branch (!reverse)
    (do
      reSub ((((((((((((u! "(?<!") ++ vir) ++ (u! ")")) ++ (u! "(")) ++ ta) ++ (u! ")")) ++ (u! "(")) ++ vir) ++ (u! ")")) ++ (u! "(?!")) ++ ListC) ++ (u! ")")) khandata
      replace (u! "ৎˍ") (u! "ৎ")
      pure ())
    (do
      replace khandata (ta ++ vir)
      pure ())
  pure ()

/-- ConvertFix.py:3399-3415 -/
def ConvertFix.FixBengali (reverse : Bool := false) : Gen Unit := do
  let t1 ← crunchSymbols [.ViramaMap] (u! "Bengali")
  let Virama := (pyJoin (u! "") t1)
  let ba := (u! "ব")
  branch (!reverse)
    (do
      reSub (((u! "(?<![রবম])") ++ Virama) ++ ba) ((Virama ++ (u! "\u200c")) ++ ba)
      reSub ((u! "(?<![রবমভ়])") ++ (u! "(্ভ়)")) (u! "্ব")
      pure ())
    (do
      pure ())
  PostProcess.KhandaTa (u! "Bengali") reverse
  pure ()

/-- ConvertFix.py:3417-3428 -/
def ConvertFix.FixAssamese (reverse : Bool := false) : Gen Unit := do
  let Ra := (u! "র")
  let AssRa := (u! "ৰ")
  PostProcess.KhandaTa (u! "Assamese") reverse
  branch (!reverse)
    (do
      replace Ra AssRa
      pure ())
    (do
      replace AssRa Ra
      pure ())
  pure ()

/-- ConvertFix.py:3430-3466 -/
def ConvertFix.FixSharada (reverse : Bool := false) : Gen Unit := do
  PostProcess.KhandaTa (u! "Assamese") reverse
  let t1 ← crunchSymbols GM.Consonants (u! "Sharada")
  let ListC := (pyJoin (u! "|") t1)
  let t2 ← crunchSymbols GM.CombiningSigns (u! "Sharada")
  let t3 ← index t2 (-1)
  let Nukta := (pyJoin (u! "|") (pyChars t3))
  let t4 ← crunchSymbols [.ViramaMap] (u! "Sharada")
  let Virama := (pyJoin (u! "") t4)
  branch (!reverse)
    (do
      replace (Nukta ++ Virama) ((Nukta ++ Virama) ++ (u! "\u200c"))
      reSub (((((((((u! "(") ++ Virama) ++ (u! ")")) ++ (u! "(")) ++ ListC) ++ (u! ")")) ++ (u! "(")) ++ Nukta) ++ (u! ")")) (((u! "\\1") ++ (u! "\u200c")) ++ (u! "\\2\\3"))
      pure ())
    (do
      pure ())
  pure ()

/-- ConvertFix.py:3468-3478 -/
def ConvertFix.FixKannada (reverse : Bool := false) : Gen Unit := do
  branch (!reverse)
    (do
      PostProcess.RetainDandasIndic (u! "Kannada") true
      reSub (u! "(್)([^ಫಜ])(಼)") (((u! "\\1") ++ (u! "\u200c")) ++ (u! "\\2\\3"))
      pure ())
    (do
      PostProcess.RetainDandasIndic (u! "Kannada")
      pure ())
  pure ()

/-- ConvertFix.py:3480-3494 -/
def ConvertFix.FixGrantha (reverse : Bool := false) : Gen Unit := do
  branch (!reverse)
    (do
      replace (u! "॑") (u! "᳴")
      replace (u! "᳚") (u! "॑")
      replace (u! "ꣳ") (u! "𑍞")
      replace (u! "ꣴ") (u! "𑍟")
      replace (u! "𑌼𑍍") (u! "𑌼𑍍\u200c")
      pure ())
    (do
      replace (u! "𑌼𑍍\u200c") (u! "𑌼𑍍")
      replace (u! "॑") (u! "᳚")
      replace (u! "᳴") (u! "॑")
      replace (u! "𑍞") (u! "ꣳ")
      replace (u! "𑍟") (u! "ꣴ")
      pure ())
  pure ()

/-- ConvertFix.py:3496-3504 -/
def ConvertFix.FixMahajani (reverse : Bool := false) : Gen Unit := do
  branch (!reverse)
    (do
      replace (u! "𑅰𑅳ʾ𑅭ʿ𑅑") (u! "𑅶")
      replace (u! "ʾ") (u! "")
      replace (u! "ʿ") (u! "")
      pure ())
    (do
      replace (u! "𑅶") (u! "𑅰𑅳ʾ𑅭ʿ𑅑")
      pure ())
  pure ()

/-- ConvertFix.py:3506-3535 -/
def ConvertFix.FixAhom (reverse : Bool := false) : Gen Unit := do
  let t1 ← crunchSymbols GM.VowelSignsNV (u! "Ahom")
  let ListVS := (((u! "(") ++ (pyJoin (u! "|") t1)) ++ (u! ")"))
  let t2 ← crunchList .AyogavahaMap (u! "Ahom")
  let t3 ← index t2 1
  let Anu := (((u! "(") ++ t3) ++ (u! ")"))
  branch (!reverse)
    (do
      replace (u! "𑜫𑜍") (u! "𑜞")
      replace (u! "𑜫𑜎") (u! "𑜝")
      reSub (ListVS ++ Anu) (u! "\\2\\1")
      reSub (Anu ++ (u! "(𑜦)")) (u! "\\2\\1")
      pure ())
    (do
      replace (u! "𑜞") (u! "𑜫𑜍")
      replace (u! "𑜝") (u! "𑜫𑜎")
      let t4 ← index (modAttr (u! "Ahom") .ViramaMap) 0
      let vir := t4
      let t5 ← index (modAttr (u! "Ahom") .AyogavahaMap) 1
      let anu := t5
      reSub ((anu ++ (u! "𑜧")) ++ (u! "(?!𑜨)")) (u! "𑜦𑜧𑜪")
      reSub (((u! "(𑜦)(.)(") ++ vir) ++ (u! ")")) ((u! "𑜦𑜧") ++ (u! "\\2\\3"))
      reSub (((u! "(𑜨)(.)(") ++ vir) ++ (u! ")")) ((u! "𑜦𑜡") ++ (u! "\\2\\3"))
      replace (anu ++ (u! "𑜨")) (u! "𑜦𑜡𑜪")
      reSub (Anu ++ ListVS) (u! "\\2\\1")
      pure ())
  pure ()

/-- ConvertFix.py:3537-3545 -/
def ConvertFix.FixMultani (reverse : Bool := false) : Gen Unit := do
  branch (!reverse)
    (do
      replace (u! "ʾ") (u! "")
      replace (u! "ʿ") (u! "")
      replace (u! "ˍ𑊌") (u! "𑊍")
      replace (u! "ˍ𑊂") (u! "𑊓")
      pure ())
    (do
      replace (u! "𑊍") (u! "ˍ𑊌")
      replace (u! "𑊓") (u! "ˍ𑊒")
      pure ())
  pure ()

/-- ConvertFix.py:3548-3556 -/
def ConvertFix.FixGujarati (reverse : Bool := false) : Gen Unit := do
  branch (!reverse)
    (do
      PostProcess.RetainDandasIndic (u! "Gujarati") true
      replace (u! "જ઼઼") (u! "ૹ")
      replace (u! "શ઼") (u! "ૹ")
      pure ())
    (do
      PostProcess.RetainDandasIndic (u! "Gujarati")
      replace (u! "ૹ") (u! "જ઼઼")
      replace (u! "ૹ") (u! "શ઼")
      pure ())
  pure ()

/-- ConvertFix.py:3558-3598 -/
def ConvertFix.FixZanabazarSquare (reverse : Bool := false) : Gen Unit := do
  let t1 ← crunchSymbols GM.Consonants (u! "ZanabazarSquare")
  let ListC := (pyJoin (u! "|") t1)
  let yrlv := (pySlice (modAttr (u! "ZanabazarSquare") .ConsonantMap) (some 25) (some 29))
  let yrlv_sub := [(u! "𑨻"), (u! "𑨼"), (u! "𑨽"), (u! "𑨾")]
  let t2 ← index (modAttr (u! "ZanabazarSquare") .ViramaMap) 0
  let vir := t2
  branch (!reverse)
    (do
      reSub (((vir ++ (u! "(")) ++ ListC) ++ (u! ")")) ((u! "𑩇") ++ (u! "\\1"))
      replace (u! "𑨋𑩇𑨯") (u! "𑨲")
      pure ())
    (do
      replace (u! "𑩁") (u! " ")
      let tsaSeries := [(u! "𑨣"), (u! "𑨤"), (u! "𑨥")]
      let caSeries := [(u! "𑨐"), (u! "𑨑"), (u! "𑨒")]
      forEach (pyZip tsaSeries caSeries) fun (x, y) => do
        replace y x
      forEach (pyZip yrlv yrlv_sub) fun (x, y) => do
        replace y ((u! "𑩇") ++ x)
      let t3 ← index yrlv 1
      replace (u! "𑨺") (t3 ++ (u! "𑩇"))
      replace (u! "𑨲") (u! "𑨋𑩇𑨯")
      replace (u! "𑨇") (u! "𑨄𑨊")
      replace (u! "𑨈") (u! "𑨆𑨊")
      replace (u! "𑨳") vir
      replace (u! "𑩇") vir
      pure ())
  pure ()

/-- ConvertFix.py:3600-3627 -/
def ConvertFix.FixKhojki (reverse : Bool := false) : Gen Unit := do
  let sindhi := [(u! "𑈋"), (u! "𑈑"), (u! "𑈜"), (u! "𑈢")]
  let sindhiapprox := [(u! "ˍ𑈊"), (u! "ˍ𑈐"), (u! "ˍ𑈖"), (u! "ˍ𑈡")]
  branch (!reverse)
    (do
      forEach (pyZip sindhi sindhiapprox) fun (x, y) => do
        replace y x
      PostProcess.InsertGeminationSign (u! "Khojki")
      reSub (u! "(𑈷)(.)") (u! "\\2\\1")
      replace (u! "𑈷𑈶") (u! "𑈶𑈷")
      replace (u! " ") (u! "𑈺")
      pure ())
    (do
      replace (u! "𑈺") (u! " ")
      forEach (pyZip sindhi sindhiapprox) fun (x, y) => do
        replace x y
      replace (u! "𑈶𑈷") (u! "𑈷𑈶")
      reSub (u! "(.)(𑈷)") (u! "\\2\\1")
      PostProcess.ReverseGeminationSign (u! "Khojki")
      pure ())
  pure ()

/-- ConvertFix.py:3629-3639 -/
def ConvertFix.FixNewa (reverse : Bool := false) : Gen Unit := do
  branch (!reverse)
    (do
      let t1 ← crunchSymbols GM.Consonants (u! "Newa")
      let ListC := (pyJoin (u! "|") t1)
      let t2 ← index (modAttr (u! "Newa") .ConsonantMap) 26
      let ra := t2
      let t3 ← index (modAttr (u! "Newa") .ViramaMap) 0
      let vir := t3
      pure ())
    (do
      pure ())
  pure ()

/-- PreProcess.py:15-16 -/
def PreProcess.ItransLL : Gen Unit := do
  pure ()

/-- PreProcess.py:18-21 -/
def PreProcess.RomanLoCChandrabindu : Gen Unit := do
  reSub (u! "n̐") (u! "m̐")
  pure ()

/-- PreProcess.py:23-26 -/
def PreProcess.BalineseRomanLoCFix : Gen Unit := do
  replace (u! "‘") (u! "ng̈")
  pure ()

/-- PreProcess.py:28-31 -/
def PreProcess.JavaneseRomanLoCFix : Gen Unit := do
  replace (u! "‘") (u! "ng̈")
  pure ()

/-- PreProcess.py:33-38 -/
def PreProcess.HindiMarathiRomanLoCFix : Gen Unit := do
  replace (u! "sh") (u! "ṣ")
  replace (u! "ḷ") (u! "ḻ")
  replace (u! "l̤") (u! "l̳")
  pure ()

/-- PreProcess.py:59-62 -/
def PreProcess.RomanLoCLaUnderscoreDoubleDot : Gen Unit := do
  replace (u! "l̤") (u! "ḻ")
  pure ()

/-- PreProcess.py:44-46 -/
def PreProcess.RomanLoCVaWa : Gen Unit := do
  replace (u! "w") (u! "v")
  pure ()

/-- PreProcess.py:48-51 -/
def PreProcess.RomanLoCSasha : Gen Unit := do
  replace (u! "sh") (u! "ṣ")
  pure ()

/-- PreProcess.py:53-57 -/
def PreProcess.RomanLoCSLaDotLaUnderscore : Gen Unit := do
  replace (u! "ḻ") (u! "l̤")
  replace (u! "l̳") (u! "ḻ")
  pure ()

/-- PreProcess.py:64-67 -/
def PreProcess.MalayalamRomanLoCFix : Gen Unit := do
  replace (u! "ṯṯ") (u! "ṟṟ")
  replace (u! "ȧ") (u! "ŭ")
  pure ()

/-- PreProcess.py:69-73 -/
def PreProcess.DevanagariRomanLoCFix : Gen Unit := do
  replace (u! "g̳h̳") (u! "gḧ")
  replace (u! "t̤") (u! "ṭ̈")
  replace (u! "s̤") (u! "s̈")
  replace (u! "h̤") (u! "ḧ")
  pure ()

/-- PreProcess.py:75-78 -/
def PreProcess.IASTLDotRetroflex : Gen Unit := do
  replace (u! "ḷ") (u! "l̤")
  pure ()

/-- PreProcess.py:80-82 -/
def PreProcess.ArchaicJnaSimplifyRomanLOC : Gen Unit := do
  replace (u! "ꦘ") (u! "ꦚ")
  pure ()

/-- PreProcess.py:84-87 -/
def PreProcess.KhandaTaRomanLoC : Gen Unit := do
  replace (u! "ৎ") (u! "ṯ")
  pure ()

/-- PreProcess.py:89-93 -/
def PreProcess.TibetanLoCRomanLoCFix : Gen Unit := do
  reSub (u! "t(?![ʹhs])") (u! "tʹ")
  reSub (u! "n(?![ʹy])") (u! "nʹ")
  pure ()

/-- PreProcess.py:95-107 -/
def PreProcess.BalineseJavaneseMoveRepha (tgt : PyStr) (reph : PyStr) : Gen Unit := do
  let repha := (((u! "(") ++ reph) ++ (u! ")"))
  let t1 ← crunchSymbols GM.Consonants tgt
  let cons := (((u! "(") ++ (pyJoin (u! "|") t1)) ++ (u! ")"))
  let t2 ← crunchSymbols GM.VowelSignsNV tgt
  let vows := (((u! "(") ++ (pyJoin (u! "|") t2)) ++ (u! ")"))
  let t3 ← crunchSymbols GM.virama tgt
  let t4 ← index t3 0
  let vir := t4
  let t5 ← crunchSymbols GM.CombiningSigns tgt
  let candAnu := (((u! "[") ++ (pyJoin (u! "") (pySlice t5 none (some 2)))) ++ (u! "]"))
  reSub ((((u! "(") ++ candAnu) ++ (u! ")")) ++ repha) (u! "\\2\\1")
  reSub (((((((((((u! "(") ++ cons) ++ (u! ")")) ++ (u! "(")) ++ vir) ++ cons) ++ (u! ")*")) ++ (u! "(")) ++ vows) ++ (u! ")?")) ++ repha) (u! "\\7\\1\\3\\5")
  pure ()

/-- PreProcess.py:109-121 -/
def PreProcess.DivesAkuruAlternateIndVowels : Gen Unit := do
  let vow := (pySplit (u! "𑤁 𑤂 𑤃 𑤄 𑤅 𑤆 𑤆𑤵 𑤉 𑤀") (u! " "))
  let vowy := (pySplit (u! "𑤥𑤰 𑤥𑤱 𑤥𑤲 𑤥𑤳 𑤥𑤴 𑤥𑤵 𑤥𑤷 𑤥𑤸 𑤥") (u! " "))
  forEach (pyZip vow vowy) fun (v, vy) => do
    replace vy v
  pure ()

/-- PreProcess.py:123-133 -/
def PreProcess.KawiMoveRepha : Gen Unit := do
  let tgt := (u! "Kawi")
  let repha := (u! "𑼂")
  let t1 ← crunchSymbols (GM.Consonants ++ GM.Vowels) tgt
  let cons := (((u! "(") ++ (pyJoin (u! "|") t1)) ++ (u! ")"))
  let t2 ← crunchSymbols GM.VowelSignsNV tgt
  let vows := (((u! "(") ++ (pyJoin (u! "|") t2)) ++ (u! ")"))
  let vir := (u! "𑽂")
  reSub ((((((((((repha ++ (u! "((")) ++ cons) ++ (u! ")")) ++ (u! "(")) ++ vir) ++ cons) ++ (u! ")*")) ++ (u! "(")) ++ vows) ++ (u! ")?)")) ((u! "\\1") ++ repha)
  pure ()

/-- PreProcess.py:135-136 -/
def PreProcess.JavaneseMoveRepha : Gen Unit := do
  PreProcess.BalineseJavaneseMoveRepha (u! "Javanese") (u! "ꦂ")
  pure ()

/-- PreProcess.py:138-139 -/
def PreProcess.BalineseMoveRepha : Gen Unit := do
  PreProcess.BalineseJavaneseMoveRepha (u! "Balinese") (u! "ᬃ")
  pure ()

/-- PreProcess.py:141-144 -/
def PreProcess.OriyaSubojinedVa : Gen Unit := do
  reSub (u! "(??<![ମବ])(୍ବ)") (u! "୍ୱ")
  pure ()

/-- PreProcess.py:146-149 -/
def PreProcess.BengaliSubojinedVa : Gen Unit := do
  reSub (u! "(?<![মব])(্ব)") (u! "্ভ়")
  pure ()

/-- PreProcess.py:151-154 -/
def PreProcess.BengaliTargetVa : Gen Unit := do
  replace (u! "ব") (u! "ভ়")
  pure ()

/-- PreProcess.py:156-159 -/
def PreProcess.OriyaTargetVa : Gen Unit := do
  replace (u! "ବ") (u! "ୱ")
  pure ()

end Verif
