import Verif.Model.Sec

/-!
# /repo/aksharamukha/FallBack.py

Generated by tools/gentables.py.  The key (a comment-like label) of an entry is kept; an entry maps script
names to letters, and `OthersRev`/`OthersNonRev` to an index (−1: none) with an optional second part.
-/

namespace Verif.FB

/-- A fall-back rule `[index]`, `[index, second]`; `nukta` means "the script's nukta". -/
structure Other where
  /-- index into the list being extended, or -1 -/
  idx : Int
  /-- the second element, if any -/
  second : Option PyStr

/-- One FallBack entry. -/
structure Entry where
  /-- the key -/
  key : PyStr
  /-- letters given per script -/
  given : List (PyStr × PyStr)
  /-- rule for scripts in `ReversibleScripts` -/
  othersRev : Other
  /-- rule for the other scripts -/
  othersNonRev : Other

/-- FallBack.py:13-297 -/
def VowelMap : List Entry := [
  ⟨(u! "halfu"), [((u! "Malayalam"), (u! "ഉ്")), ((u! "Devanagari"), (u! "ॶ")), ((u! "Sharada"), (u! "𑆃𑇋𑆶")), ((u! "Tamil"), (u! "உ்")), ((u! "IAST"), (u! "ŭ")), ((u! "ISO"), (u! "ŭ")), ((u! "IPA"), (u! "ʉ"))],
    ⟨4, some (u! "ʼ")⟩, ⟨4, some (u! "˂")⟩⟩,
  ⟨(u! "halfuu"), [((u! "Malayalam"), (u! "ഊ്")), ((u! "Devanagari"), (u! "ॷ")), ((u! "Sharada"), (u! "𑆃𑇋𑆷")), ((u! "Tamil"), (u! "ஊ்")), ((u! "IAST"), (u! "ŭ̄")), ((u! "ISO"), (u! "ŭ̄")), ((u! "IPA"), (u! "ʉː"))],
    ⟨5, some (u! "ʼ")⟩, ⟨5, some (u! "˂")⟩⟩,
  ⟨(u! "oe"), [((u! "Devanagari"), (u! "ॳ")), ((u! "Sharada"), (u! "𑆃𑇋")), ((u! "IAST"), (u! "ö")), ((u! "ISO"), (u! "ö")), ((u! "IPA"), (u! "ʉː"))],
    ⟨1, some (u! "ʼʼ")⟩, ⟨1, some (u! "˂")⟩⟩,
  ⟨(u! "oee"), [((u! "Devanagari"), (u! "ॴ")), ((u! "Sharada"), (u! "𑆃𑇋𑆳")), ((u! "IAST"), (u! "ȫ")), ((u! "ISO"), (u! "ȫ")), ((u! "IPA"), (u! "ʉː"))],
    ⟨1, some (u! "ʼʼʼ")⟩, ⟨1, some (u! "˂")⟩⟩,
  ⟨(u! "ShanLoCesup"), [((u! "ShanLoC"), (u! "ဢဵ")), ((u! "Shan"), (u! "ဢဵ")), ((u! "ShanLoCRomanLoC"), (u! "eʽ"))],
    ⟨10, some (u! "˂")⟩, ⟨10, some (u! "˂")⟩⟩,
  ⟨(u! "ShanLoCui"), [((u! "ShanLoC"), (u! "ဢို")), ((u! "Shan"), (u! "ဢို")), ((u! "ShanLoCRomanLoC"), (u! "ui"))],
    ⟨4, some (u! "˂")⟩, ⟨4, some (u! "˂")⟩⟩,
  ⟨(u! "ShanLoCuui"), [((u! "ShanLoC"), (u! "ဢိူ")), ((u! "Shan"), (u! "ဢိူ")), ((u! "ShanLoCRomanLoC"), (u! "ūi"))],
    ⟨5, some (u! "˂")⟩, ⟨5, some (u! "˂")⟩⟩,
  ⟨(u! "ShanLoCuuiv"), [((u! "ShanLoC"), (u! "ဢိူဝ်")), ((u! "Shan"), (u! "ဢိူဝ်")), ((u! "ShanLoCRomanLoC"), (u! "ūiv"))],
    ⟨5, some (u! "˂")⟩, ⟨5, some (u! "˂")⟩⟩,
  ⟨(u! "ShanLoCaai"), [((u! "ShanLoC"), (u! "ဢၢႆ")), ((u! "Shan"), (u! "ဢၢႆ")), ((u! "ShanLoCRomanLoC"), (u! "āi"))],
    ⟨11, some (u! "˂")⟩, ⟨11, some (u! "˂")⟩⟩,
  ⟨(u! "ShanLoCaoi"), [((u! "ShanLoC"), (u! "ဢွႆ")), ((u! "Shan"), (u! "ဢွႆ")), ((u! "ThamLoC"), (u! "ᩋ᩿ᩅᩭ")), ((u! "ShanLoCRomanLoC"), (u! "oi")), ((u! "ThamLoCRomanLoC"), (u! "oi"))],
    ⟨11, some (u! "˂")⟩, ⟨11, some (u! "˂")⟩⟩,
  ⟨(u! "ShanLoCoalt1"), [((u! "ShanLoC"), (u! "ဢေႃ်")), ((u! "Shan"), (u! "ဢေႃ်")), ((u! "ShanLoCRomanLoC"), (u! "ò"))],
    ⟨12, some (u! "˂")⟩, ⟨12, some (u! "˂")⟩⟩,
  ⟨(u! "ShanLoCoalt"), [((u! "ShanLoC"), (u! "ဢူဝ်")), ((u! "Shan"), (u! "ဢူဝ်")), ((u! "ShanLoCRomanLoC"), (u! "ō"))],
    ⟨12, some (u! "˂")⟩, ⟨12, some (u! "˂")⟩⟩,
  ⟨(u! "ShanLoCaialt"), [((u! "ShanLoC"), (u! "ဢͮ")), ((u! "Shan"), (u! "ဢͮ")), ((u! "ShanLoCRomanLoC"), (u! "ái"))],
    ⟨11, some (u! "˂")⟩, ⟨11, some (u! "˂")⟩⟩,
  ⟨(u! "Khmery2"), [((u! "KhmerLoC"), (u! "ឪ")), ((u! "KhmerLoCRomanLoC"), (u! "ýu"))],
    ⟨4, some (u! "˂")⟩, ⟨4, some (u! "˂")⟩⟩,
  ⟨(u! "Khmery"), [((u! "KhmerLoC"), (u! "អិំʲ")), ((u! "KhmerLoCRomanLoC"), (u! "ẏ"))],
    ⟨2, some (u! "˂")⟩, ⟨2, some (u! "˂")⟩⟩,
  ⟨(u! "Khmeryy"), [((u! "KhmerLoC"), (u! "អឺʲ")), ((u! "KhmerLoCRomanLoC"), (u! "ȳ"))],
    ⟨3, some (u! "˂")⟩, ⟨3, some (u! "˂")⟩⟩,
  ⟨(u! "Khmerua"), [((u! "KhmerLoC"), (u! "អួʲ")), ((u! "KhmerLoCRomanLoC"), (u! "ua"))],
    ⟨4, some (u! "˂")⟩, ⟨4, some (u! "˂")⟩⟩,
  ⟨(u! "Khmeroe"), [((u! "KhmerLoC"), (u! "អើʲ")), ((u! "KhmerLoCRomanLoC"), (u! "oe"))],
    ⟨12, some (u! "˂")⟩, ⟨12, some (u! "˂")⟩⟩,
  ⟨(u! "Khmeryye"), [((u! "KhmerLoC"), (u! "អឿʲ")), ((u! "KhmerLoCRomanLoC"), (u! "ẏa"))],
    ⟨0, some (u! "˂")⟩, ⟨0, some (u! "˂")⟩⟩,
  ⟨(u! "Khmeria"), [((u! "KhmerLoC"), (u! "អៀʲ")), ((u! "KhmerLoCRomanLoC"), (u! "ia"))],
    ⟨0, some (u! "˂")⟩, ⟨0, some (u! "˂")⟩⟩,
  ⟨(u! "Khmershortaa"), [((u! "KhmerLoC"), (u! "អា់ʲ")), ((u! "KhmerLoCRomanLoC"), (u! "â"))],
    ⟨1, some (u! "˂")⟩, ⟨1, some (u! "˂")⟩⟩,
  ⟨(u! "Thamcloseda"), [((u! "ThamLoC"), (u! "ᩋᩢ")), ((u! "TaiTham"), (u! "ᩋᩢ")), ((u! "LaoTham"), (u! "ᩋᩢ")), ((u! "LueTham"), (u! "ᩋᩢ")), ((u! "KhuenTham"), (u! "ᩋᩢ")), ((u! "ThamLoCRomanLoC"), (u! "aʽ"))],
    ⟨0, some (u! "˂")⟩, ⟨0, some (u! "˂")⟩⟩,
  ⟨(u! "Thamclosede"), [((u! "ThamLoC"), (u! "ᩋ᩿ᨿ")), ((u! "TaiTham"), (u! "ᩋ᩿ᨿ")), ((u! "LueTham"), (u! "ᩋ᩿ᨿ")), ((u! "KhuenTham"), (u! "ᩋ᩿ᨿ")), ((u! "LaoTham"), (u! "ᩋ᩿ᨿ")), ((u! "ThamLoCRomanLoC"), (u! "è"))],
    ⟨0, some (u! "˂")⟩, ⟨0, some (u! "˂")⟩⟩,
  ⟨(u! "Thamclosedau"), [((u! "ThamLoC"), (u! "ᩋ᩿ᩅ")), ((u! "TaiTham"), (u! "ᩋ᩿ᩅ")), ((u! "LaoTham"), (u! "ᩋ᩿ᩅ")), ((u! "LueTham"), (u! "ᩋ᩿ᩅ")), ((u! "KhuenTham"), (u! "ᩋ᩿ᩅ")), ((u! "ThamLoCRomanLoC"), (u! "òʽ"))],
    ⟨13, some (u! "˂")⟩, ⟨13, some (u! "˂")⟩⟩,
  ⟨(u! "Thamopeno2h"), [((u! "ThamLoC"), (u! "ᩋᩰᩬᩡ")), ((u! "TaiTham"), (u! "ᩋᩰᩬᩡ")), ((u! "LueTham"), (u! "ᩋᩰᩬᩡ")), ((u! "KhuenTham"), (u! "ᩋᩰᩬᩡ")), ((u! "LaoTham"), (u! "ᩋᩰᩬᩡ")), ((u! "ThamLoCRomanLoC"), (u! "ǫḥ"))],
    ⟨12, some (u! "˂")⟩, ⟨12, some (u! "˂")⟩⟩,
  ⟨(u! "Thamclosedo2h"), [((u! "ThamLoC"), (u! "ᩋᩫ")), ((u! "TaiTham"), (u! "ᩋᩫ")), ((u! "LaoTham"), (u! "ᩋᩫ")), ((u! "LueTham"), (u! "ᩋᩫ")), ((u! "KhuenTham"), (u! "ᩋᩫ")), ((u! "ThamLoCRomanLoC"), (u! "ǫḥʽ"))],
    ⟨12, some (u! "˂")⟩, ⟨12, some (u! "˂")⟩⟩,
  ⟨(u! "Thamohook"), [((u! "ThamLoC"), (u! "ᩋᩳ")), ((u! "LaoTham"), (u! "ᩋᩳ")), ((u! "TaiTham"), (u! "ᩋᩳ")), ((u! "LueTham"), (u! "ᩋᩳ")), ((u! "KhuenTham"), (u! "ᩋᩳ")), ((u! "ThamLoCRomanLoC"), (u! "ǫ"))],
    ⟨12, some (u! "˂")⟩, ⟨12, some (u! "˂")⟩⟩,
  ⟨(u! "Thamohookclosed"), [((u! "ThamLoC"), (u! "ᩋᩬ")), ((u! "LaoTham"), (u! "ᩋᩬ")), ((u! "TaiTham"), (u! "ᩋᩬ")), ((u! "LueTham"), (u! "ᩋᩬ")), ((u! "KhuenTham"), (u! "ᩋᩬ")), ((u! "ThamLoCRomanLoC"), (u! "ǫʽ"))],
    ⟨3, some (u! "˂")⟩, ⟨3, some (u! "˂")⟩⟩,
  ⟨(u! "Thamouhookk"), [((u! "ThamLoC"), (u! "ᩋᩧ")), ((u! "TaiTham"), (u! "ᩋᩧ")), ((u! "LaoTham"), (u! "ᩋᩧ")), ((u! "LueTham"), (u! "ᩋᩧ")), ((u! "KhuenTham"), (u! "ᩋᩧ")), ((u! "ThamLoCRomanLoC"), (u! "ư"))],
    ⟨4, some (u! "˂")⟩, ⟨4, some (u! "˂")⟩⟩,
  ⟨(u! "Thamuuhook"), [((u! "ThamLoC"), (u! "ᩋᩨ")), ((u! "TaiTham"), (u! "ᩋᩨ")), ((u! "LaoTham"), (u! "ᩋᩨ")), ((u! "LueTham"), (u! "ᩋᩨ")), ((u! "KhuenTham"), (u! "ᩋᩨ")), ((u! "ThamLoCRomanLoC"), (u! "ư̄"))],
    ⟨5, some (u! "˂")⟩, ⟨5, some (u! "˂")⟩⟩,
  ⟨(u! "Thamaiy"), [((u! "ThamLoC"), (u! "ᩋᩱ᩿ᨿ")), ((u! "TaiTham"), (u! "ᩋᩱ᩿ᨿ")), ((u! "LueTham"), (u! "ᩋᩱ᩿ᨿ")), ((u! "KhuenTham"), (u! "ᩋᩱ᩿ᨿ")), ((u! "LaoTham"), (u! "ᩋᩱ᩿ᨿ")), ((u! "ThamLoCRomanLoC"), (u! "aiy᩺"))],
    ⟨11, some (u! "˂")⟩, ⟨11, some (u! "˂")⟩⟩,
  ⟨(u! "Thamohohooki"), [((u! "ThamLoC"), (u! "ᩋᩭ")), ((u! "TaiTham"), (u! "ᩋᩭ")), ((u! "LaoTham"), (u! "ᩋᩭ")), ((u! "LueTham"), (u! "ᩋᩭ")), ((u! "KhuenTham"), (u! "ᩋᩭ")), ((u! "ThamLoCRomanLoC"), (u! "ǫi"))],
    ⟨11, some (u! "˂")⟩, ⟨11, some (u! "˂")⟩⟩,
  ⟨(u! "Thameo2"), [((u! "ThamLoC"), (u! "ᩋᩴ᩿ᨿ")), ((u! "TaiTham"), (u! "ᩋᩴ᩿ᨿ")), ((u! "LaoTham"), (u! "ᩋᩴ᩿ᨿ")), ((u! "LueTham"), (u! "ᩋᩴ᩿ᨿ")), ((u! "KhuenTham"), (u! "ᩋᩴ᩿ᨿ")), ((u! "ThamLoCRomanLoC"), (u! "eo"))],
    ⟨12, some (u! "˂")⟩, ⟨12, some (u! "˂")⟩⟩,
  ⟨(u! "Thamohao"), [((u! "ThamLoC"), (u! "ᩋᩮᩢᩣ")), ((u! "TaiTham"), (u! "ᩋᩮᩢᩣ")), ((u! "LaoTham"), (u! "ᩋᩮᩢᩣ")), ((u! "KhuenTham"), (u! "ᩋᩮᩢᩣ")), ((u! "LueTham"), (u! "ᩋᩮᩢᩣ")), ((u! "ThamLoCRomanLoC"), (u! "ao"))],
    ⟨13, some (u! "˂")⟩, ⟨13, some (u! "˂")⟩⟩]

/-- FallBack.py:299-577 -/
def VowelSignMap : List Entry := [
  ⟨(u! "halfu"), [((u! "Malayalam"), (u! "ു്")), ((u! "Devanagari"), (u! "ॖ")), ((u! "Sharada"), (u! "𑇋𑆶")), ((u! "Tamil"), (u! "ு்")), ((u! "IAST"), (u! "ŭ")), ((u! "ISO"), (u! "ŭ")), ((u! "IPA"), (u! "ʉː"))],
    ⟨3, some (u! "ʼ")⟩, ⟨3, some (u! "˂")⟩⟩,
  ⟨(u! "halfuu"), [((u! "Malayalam"), (u! "ൂ്")), ((u! "Devanagari"), (u! "ॗ")), ((u! "Sharada"), (u! "𑇋𑆷")), ((u! "Tamil"), (u! "ூ்")), ((u! "IAST"), (u! "ŭ̄")), ((u! "ISO"), (u! "ŭ̄")), ((u! "IPA"), (u! "ʉ"))],
    ⟨4, some (u! "ʼ")⟩, ⟨4, some (u! "˂")⟩⟩,
  ⟨(u! "oe"), [((u! "Devanagari"), (u! "ऺ")), ((u! "Sharada"), (u! "𑇋")), ((u! "IAST"), (u! "ö")), ((u! "ISO"), (u! "ö")), ((u! "IPA"), (u! "ʉː"))],
    ⟨0, some (u! "ʼʼ")⟩, ⟨0, some (u! "˂")⟩⟩,
  ⟨(u! "oee"), [((u! "Devanagari"), (u! "ऻ")), ((u! "Sharada"), (u! "𑇋𑆳")), ((u! "IAST"), (u! "ȫ")), ((u! "ISO"), (u! "ȫ")), ((u! "IPA"), (u! "ʉː"))],
    ⟨0, some (u! "ʼʼʼ")⟩, ⟨0, some (u! "˂")⟩⟩,
  ⟨(u! "ShanLoCesup"), [((u! "ShanLoC"), (u! "ဵ")), ((u! "Shan"), (u! "ဵ")), ((u! "ShanLoCRomanLoC"), (u! "eʽ"))],
    ⟨9, some (u! "˂")⟩, ⟨9, some (u! "˂")⟩⟩,
  ⟨(u! "ShanLoCui"), [((u! "ShanLoC"), (u! "ို")), ((u! "Shan"), (u! "ို")), ((u! "ShanLoCRomanLoC"), (u! "ui"))],
    ⟨3, some (u! "˂")⟩, ⟨3, some (u! "˂")⟩⟩,
  ⟨(u! "ShanLoCuui"), [((u! "ShanLoC"), (u! "ိူ")), ((u! "Shan"), (u! "ိူ")), ((u! "ShanLoCRomanLoC"), (u! "ūi"))],
    ⟨4, some (u! "˂")⟩, ⟨4, some (u! "˂")⟩⟩,
  ⟨(u! "ShanLoCuuiv"), [((u! "ShanLoC"), (u! "ိူဝ်")), ((u! "Shan"), (u! "ိူဝ်")), ((u! "ShanLoCRomanLoC"), (u! "ūiv"))],
    ⟨4, some (u! "˂")⟩, ⟨4, some (u! "˂")⟩⟩,
  ⟨(u! "ShanLoCaai"), [((u! "ShanLoC"), (u! "ၢႆ")), ((u! "Shan"), (u! "ၢႆ")), ((u! "ShanLoCRomanLoC"), (u! "āi"))],
    ⟨10, some (u! "˂")⟩, ⟨10, some (u! "˂")⟩⟩,
  ⟨(u! "ShanLoCaoi"), [((u! "ShanLoC"), (u! "ွႆ")), ((u! "Shan"), (u! "ွႆ")), ((u! "ThamLoC"), (u! "᩿ᩅᩭ")), ((u! "ShanLoCRomanLoC"), (u! "oi")), ((u! "ThamLoCRomanLoC"), (u! "oi"))],
    ⟨10, some (u! "˂")⟩, ⟨10, some (u! "˂")⟩⟩,
  ⟨(u! "ShanLoCoalt1"), [((u! "ShanLoC"), (u! "ေႃ်")), ((u! "Shan"), (u! "ေႃ်")), ((u! "ShanLoCRomanLoC"), (u! "ò"))],
    ⟨11, some (u! "˂")⟩, ⟨11, some (u! "˂")⟩⟩,
  ⟨(u! "ShanLoCoalt"), [((u! "ShanLoC"), (u! "ူဝ်")), ((u! "Shan"), (u! "ူဝ်")), ((u! "ShanLoCRomanLoC"), (u! "ō"))],
    ⟨11, some (u! "˂")⟩, ⟨11, some (u! "˂")⟩⟩,
  ⟨(u! "ShanLoCaialt"), [((u! "ShanLoC"), (u! "ͮ")), ((u! "Shan"), (u! "ͮ")), ((u! "ShanLoCRomanLoC"), (u! "ái"))],
    ⟨10, some (u! "˂")⟩, ⟨10, some (u! "˂")⟩⟩,
  ⟨(u! "Khmery2"), [((u! "KhmerLoC"), (u! "្ឪ")), ((u! "KhmerLoCRomanLoC"), (u! "ýu"))],
    ⟨4, some (u! "˂")⟩, ⟨4, some (u! "˂")⟩⟩,
  ⟨(u! "Khmery"), [((u! "KhmerLoC"), (u! "ិំʽ")), ((u! "KhmerLoCRomanLoC"), (u! "ẏ"))],
    ⟨1, some (u! "˂")⟩, ⟨1, some (u! "˂")⟩⟩,
  ⟨(u! "Khmeryy"), [((u! "KhmerLoC"), (u! "ឺ")), ((u! "KhmerLoCRomanLoC"), (u! "ȳ"))],
    ⟨2, some (u! "˂")⟩, ⟨2, some (u! "˂")⟩⟩,
  ⟨(u! "Khmerua"), [((u! "KhmerLoC"), (u! "ួ")), ((u! "KhmerLoCRomanLoC"), (u! "ua"))],
    ⟨3, some (u! "˂")⟩, ⟨3, some (u! "˂")⟩⟩,
  ⟨(u! "Khmeroe"), [((u! "KhmerLoC"), (u! "ើ")), ((u! "KhmerLoCRomanLoC"), (u! "oe"))],
    ⟨11, some (u! "˂")⟩, ⟨11, some (u! "˂")⟩⟩,
  ⟨(u! "Khmeryye"), [((u! "KhmerLoC"), (u! "ឿ")), ((u! "KhmerLoCRomanLoC"), (u! "ẏa"))],
    ⟨-1, some (u! "˂")⟩, ⟨-1, some (u! "˂")⟩⟩,
  ⟨(u! "Khmeria"), [((u! "KhmerLoC"), (u! "ៀ")), ((u! "KhmerLoCRomanLoC"), (u! "ia"))],
    ⟨-1, some (u! "˂")⟩, ⟨-1, some (u! "˂")⟩⟩,
  ⟨(u! "Khmershortaa"), [((u! "KhmerLoC"), (u! "ា់")), ((u! "KhmerLoCRomanLoC"), (u! "â"))],
    ⟨0, some (u! "˂")⟩, ⟨0, some (u! "˂")⟩⟩,
  ⟨(u! "Thamcloseda"), [((u! "ThamLoC"), (u! "ᩢ")), ((u! "TaiTham"), (u! "ᩢ")), ((u! "LaoTham"), (u! "ᩢ")), ((u! "KhuenTham"), (u! "ᩢ")), ((u! "LueTham"), (u! "ᩢ")), ((u! "ThamLoCRomanLoC"), (u! "aʽ"))],
    ⟨-1, some (u! "˂")⟩, ⟨-1, some (u! "˂")⟩⟩,
  ⟨(u! "Thamclosede"), [((u! "ThamLoC"), (u! "᩿ᨿ")), ((u! "TaiTham"), (u! "᩿ᨿ")), ((u! "LaoTham"), (u! "᩿ᨿ")), ((u! "KhuenTham"), (u! "᩿ᨿ")), ((u! "LueTham"), (u! "᩿ᨿ")), ((u! "ThamLoCRomanLoC"), (u! "è"))],
    ⟨9, some (u! "˂")⟩, ⟨9, some (u! "˂")⟩⟩,
  ⟨(u! "Thamclosedau"), [((u! "ThamLoC"), (u! "᩿ᩅ")), ((u! "TaiTham"), (u! "᩿ᩅ")), ((u! "LaoTham"), (u! "᩿ᩅ")), ((u! "LueTham"), (u! "᩿ᩅ")), ((u! "KhuenTham"), (u! "᩿ᩅ")), ((u! "ThamLoCRomanLoC"), (u! "òʽ"))],
    ⟨13, some (u! "˂")⟩, ⟨13, some (u! "˂")⟩⟩,
  ⟨(u! "Thamopeno2h"), [((u! "ThamLoC"), (u! "ᩰᩬᩡ")), ((u! "TaiTham"), (u! "ᩰᩬᩡ")), ((u! "LaoTham"), (u! "ᩰᩬᩡ")), ((u! "LueTham"), (u! "ᩰᩬᩡ")), ((u! "KhuenTham"), (u! "ᩰᩬᩡ")), ((u! "ThamLoCRomanLoC"), (u! "ǫḥ"))],
    ⟨11, some (u! "˂")⟩, ⟨11, some (u! "˂")⟩⟩,
  ⟨(u! "Thamclosedo2h"), [((u! "ThamLoC"), (u! "ᩫ")), ((u! "TaiTham"), (u! "ᩳ")), ((u! "LaoTham"), (u! "ᩳ")), ((u! "KhuenTham"), (u! "ᩳ")), ((u! "LueTham"), (u! "ᩳ")), ((u! "ThamLoCRomanLoC"), (u! "ǫḥʽ"))],
    ⟨11, some (u! "˂")⟩, ⟨11, some (u! "˂")⟩⟩,
  ⟨(u! "Thamohook"), [((u! "ThamLoC"), (u! "ᩳ")), ((u! "ThamLoCRomanLoC"), (u! "ǫ"))],
    ⟨11, some (u! "˂")⟩, ⟨11, some (u! "˂")⟩⟩,
  ⟨(u! "Thamohookclosed"), [((u! "ThamLoC"), (u! "ᩬ")), ((u! "TaiTham"), (u! "ᩬ")), ((u! "LaoTham"), (u! "ᩬ")), ((u! "KhuenTham"), (u! "ᩬ")), ((u! "LueTham"), (u! "ᩬ")), ((u! "ThamLoCRomanLoC"), (u! "ǫʽ"))],
    ⟨11, some (u! "˂")⟩, ⟨11, some (u! "˂")⟩⟩,
  ⟨(u! "Thamouhookk"), [((u! "ThamLoC"), (u! "ᩧ")), ((u! "TaiTham"), (u! "ᩧ")), ((u! "LaoTham"), (u! "ᩧ")), ((u! "KhuenTham"), (u! "ᩧ")), ((u! "LueTham"), (u! "ᩧ")), ((u! "ThamLoCRomanLoC"), (u! "ư"))],
    ⟨3, some (u! "˂")⟩, ⟨3, some (u! "˂")⟩⟩,
  ⟨(u! "Thamuuhook"), [((u! "ThamLoC"), (u! "ᩨ")), ((u! "TaiTham"), (u! "ᩨ")), ((u! "LaoTham"), (u! "ᩨ")), ((u! "KhuenTham"), (u! "ᩨ")), ((u! "LueTham"), (u! "ᩨ")), ((u! "ThamLoCRomanLoC"), (u! "ư̄"))],
    ⟨4, some (u! "˂")⟩, ⟨4, some (u! "˂")⟩⟩,
  ⟨(u! "Thamaiy"), [((u! "ThamLoC"), (u! "ᩱ᩿ᨿ")), ((u! "TaiTham"), (u! "ᩱ᩿ᨿ")), ((u! "LaoTham"), (u! "ᩱ᩿ᨿ")), ((u! "KhuenTham"), (u! "ᩱ᩿ᨿ")), ((u! "LueTham"), (u! "ᩱ᩿ᨿ")), ((u! "ThamLoCRomanLoC"), (u! "aiy᩺"))],
    ⟨10, some (u! "˂")⟩, ⟨10, some (u! "˂")⟩⟩,
  ⟨(u! "Thamohohooki"), [((u! "ThamLoC"), (u! "ᩭ")), ((u! "TaiTham"), (u! "ᩭ")), ((u! "LaoTham"), (u! "ᩭ")), ((u! "KhuenTham"), (u! "ᩭ")), ((u! "LueTham"), (u! "ᩭ")), ((u! "ThamLoCRomanLoC"), (u! "ǫi"))],
    ⟨10, some (u! "˂")⟩, ⟨10, some (u! "˂")⟩⟩,
  ⟨(u! "Thameo2"), [((u! "ThamLoC"), (u! "ᩴ᩿ᨿ")), ((u! "TaiTham"), (u! "ᩴ᩿ᨿ")), ((u! "LueTham"), (u! "ᩴ᩿ᨿ")), ((u! "KhuenTham"), (u! "ᩴ᩿ᨿ")), ((u! "LaoTham"), (u! "ᩴ᩿ᨿ")), ((u! "ThamLoCRomanLoC"), (u! "eo"))],
    ⟨11, some (u! "˂")⟩, ⟨11, some (u! "˂")⟩⟩,
  ⟨(u! "Thamohao"), [((u! "ThamLoC"), (u! "ᩮᩢᩣ")), ((u! "Tham"), (u! "ᩮᩢᩣ")), ((u! "ThamLoCRomanLoC"), (u! "ao"))],
    ⟨12, some (u! "˂")⟩, ⟨12, some (u! "˂")⟩⟩]

/-- FallBack.py:653-802 -/
def ConsonantMap : List Entry := [
  ⟨(u! "khuenba"), [((u! "ThamLoC"), (u! "ᨷ")), ((u! "LaoTham"), (u! "ᨷ")), ((u! "LueTham"), (u! "ᨷ")), ((u! "TaiTham"), (u! "ᨷ")), ((u! "KhuenTham"), (u! "ᨷ")), ((u! "ThamLoCRomanLoC"), (u! "b̤"))],
    ⟨22, some (u! "˂")⟩, ⟨22, some (u! "˂")⟩⟩,
  ⟨(u! "khuenkxa"), [((u! "ThamLoC"), (u! "ᨤ")), ((u! "LueTham"), (u! "ᨤ")), ((u! "TaiTham"), (u! "ᨤ")), ((u! "LaoTham"), (u! "ᨤ")), ((u! "KhuenTham"), (u! "ᨤ")), ((u! "ThamLoCRomanLoC"), (u! "k̤"))],
    ⟨0, some (u! "˂")⟩, ⟨0, some (u! "˂")⟩⟩,
  ⟨(u! "khuenfa"), [((u! "ThamLoC"), (u! "ᨺ")), ((u! "TaiTham"), (u! "ᨺ")), ((u! "LueTham"), (u! "ᨺ")), ((u! "LaoTham"), (u! "ᨺ")), ((u! "KhuenTham"), (u! "ᨺ")), ((u! "ThamLoCRomanLoC"), (u! "f̈"))],
    ⟨21, some (u! "˂")⟩, ⟨21, some (u! "˂")⟩⟩,
  ⟨(u! "khuensa"), [((u! "ThamLoC"), (u! "ᨪ")), ((u! "TaiTham"), (u! "ᨪ")), ((u! "LueTham"), (u! "ᨪ")), ((u! "LaoTham"), (u! "ᨪ")), ((u! "KhuenTham"), (u! "ᨪ")), ((u! "ThamLoCRomanLoC"), (u! "s̤"))],
    ⟨31, some (u! "˂")⟩, ⟨31, some (u! "˂")⟩⟩,
  ⟨(u! "khuenha"), [((u! "ThamLoC"), (u! "ᩌ")), ((u! "TaiTham"), (u! "ᩌ")), ((u! "LueTham"), (u! "ᩌ")), ((u! "LaoTham"), (u! "ᩌ")), ((u! "KhuenTham"), (u! "ᩌ")), ((u! "ThamLoCRomanLoC"), (u! "h̤"))],
    ⟨32, some (u! "˂")⟩, ⟨32, some (u! "˂")⟩⟩,
  ⟨(u! "khuenya"), [((u! "ThamLoC"), (u! "ᩀ")), ((u! "LueTham"), (u! "ᩀ")), ((u! "LaoTham"), (u! "ᩀ")), ((u! "TaiTham"), (u! "ᩀ")), ((u! "KhuenTham"), (u! "ᩀ")), ((u! "ThamLoCRomanLoC"), (u! "ÿ"))],
    ⟨25, some (u! "˂")⟩, ⟨25, some (u! "˂")⟩⟩,
  ⟨(u! "theta"), [((u! "ShanLoC"), (u! "ႀ")), ((u! "Shan"), (u! "ႀ")), ((u! "ShanLoCRomanLoC"), (u! "x"))],
    ⟨15, some (u! "nukta")⟩, ⟨15, some (u! "nukta")⟩⟩,
  ⟨(u! "khmernga"), [((u! "KhmerLoC"), (u! "ង៉")), ((u! "KhmerLoCRomanLoC"), (u! "ṅ″"))],
    ⟨4, some (u! "˂")⟩, ⟨4, some (u! "˂")⟩⟩,
  ⟨(u! "khmernja"), [((u! "KhmerLoC"), (u! "ញ៉")), ((u! "KhmerLoCRomanLoC"), (u! "ñ″"))],
    ⟨9, some (u! "˂")⟩, ⟨9, some (u! "˂")⟩⟩,
  ⟨(u! "khmerma"), [((u! "KhmerLoC"), (u! "ម៉")), ((u! "KhmerLoCRomanLoC"), (u! "m″"))],
    ⟨24, some (u! "˂")⟩, ⟨24, some (u! "˂")⟩⟩,
  ⟨(u! "khmerpa"), [((u! "KhmerLoC"), (u! "ប៉")), ((u! "KhmerLoCRomanLoC"), (u! "p″"))],
    ⟨20, some (u! "˂")⟩, ⟨20, some (u! "˂")⟩⟩,
  ⟨(u! "khmerya"), [((u! "KhmerLoC"), (u! "យ៉")), ((u! "KhmerLoCRomanLoC"), (u! "y″"))],
    ⟨25, some (u! "˂")⟩, ⟨25, some (u! "˂")⟩⟩,
  ⟨(u! "khmerra"), [((u! "KhmerLoC"), (u! "រ៉")), ((u! "KhmerLoCRomanLoC"), (u! "r″"))],
    ⟨26, some (u! "˂")⟩, ⟨26, some (u! "˂")⟩⟩,
  ⟨(u! "khmerva"), [((u! "KhmerLoC"), (u! "វ៉")), ((u! "KhmerLoCRomanLoC"), (u! "v″"))],
    ⟨28, some (u! "˂")⟩, ⟨28, some (u! "˂")⟩⟩,
  ⟨(u! "khmerpa2"), [((u! "KhmerLoC"), (u! "ប៊")), ((u! "KhmerLoCRomanLoC"), (u! "p′"))],
    ⟨20, some (u! "˂")⟩, ⟨20, some (u! "˂")⟩⟩,
  ⟨(u! "khmersa"), [((u! "KhmerLoC"), (u! "ស៊")), ((u! "KhmerLoCRomanLoC"), (u! "s′"))],
    ⟨31, some (u! "˂")⟩, ⟨31, some (u! "˂")⟩⟩,
  ⟨(u! "khmerha"), [((u! "Khmer"), (u! "ហ៊")), ((u! "KhmerLoC"), (u! "ហ៊")), ((u! "KhmerLoCRomanLoC"), (u! "h′"))],
    ⟨32, some (u! "˂")⟩, ⟨32, some (u! "˂")⟩⟩,
  ⟨(u! "khmeracons"), [((u! "KhmerLoC"), (u! "អ")), ((u! "KhmerLoCRomanLoC"), (u! "‛ʹ"))],
    ⟨0, some (u! "˂")⟩, ⟨0, some (u! "˂")⟩⟩,
  ⟨(u! "khmeraconsmod"), [((u! "KhmerLoC"), (u! "អ៊")), ((u! "KhmerLoCRomanLoC"), (u! "‛ʹ′"))],
    ⟨0, some (u! "˂")⟩, ⟨0, some (u! "˂")⟩⟩,
  ⟨(u! "ThamDoubleNJNJ"), [((u! "ThamLoC"), (u! "ᨬᩚ")), ((u! "ThamLoCRomanLoC"), (u! "ññ"))],
    ⟨9, some (u! "˂")⟩, ⟨9, some (u! "˂")⟩⟩]

/-- FallBack.py:804-847 -/
def SignMap : List Entry := [
  ⟨(u! "shanexcl"), [((u! "ShanLoC"), (u! "႟")), ((u! "Shan"), (u! "႟")), ((u! "ShanLoCRomanLoC"), (u! "u*"))],
    ⟨-1, some (u! "!˂˂˂˂˂")⟩, ⟨-1, some (u! "!˂˂˂˂")⟩⟩,
  ⟨(u! "shanone"), [((u! "ShanLoC"), (u! "႞")), ((u! "Shan"), (u! "႞")), ((u! "ShanLoCRomanLoC"), (u! "n*"))],
    ⟨-1, some (u! "!!˂")⟩, ⟨-1, some (u! "!!˂")⟩⟩,
  ⟨(u! "Khmerdivider"), [((u! "KhmerLoC"), (u! "៖")), ((u! "KhmerLoCRomanLoC"), (u! ":"))],
    ⟨-1, some (u! "!!!˂")⟩, ⟨-1, some (u! "!!!˂")⟩⟩,
  ⟨(u! "Thamlae"), [((u! "ThamLoC"), (u! "ᩓ")), ((u! "ThamLoCRomanLoC"), (u! "læ"))],
    ⟨-1, some (u! "!!!˂")⟩, ⟨-1, some (u! "!!!˂")⟩⟩,
  ⟨(u! "'Danda1': {\n        'Devanagari': '│',\n        'OthersRev': [1, '˂'],\n        'OthersNonRev': [1, '˂'],\n    },\n    'Danda2': {\n        'Devanagari': '┃',\n        'OthersRev': [2, '˂'],\n        'OthersNonRev': [2, '˂'],\n    },Thamlae"), [((u! "ThamLoC"), (u! "ᩓ")), ((u! "ThamLoCRomanLoC"), (u! "læ"))],
    ⟨-1, some (u! "!!!˂")⟩, ⟨-1, some (u! "!!!˂")⟩⟩]

/-- FallBack.py:849-1002 -/
def AyogavahaMap : List Entry := [
  ⟨(u! "Jihvamuliya"), [((u! "IAST"), (u! "ẖ")), ((u! "ISO"), (u! "ẖ")), ((u! "IASTPali"), (u! "ẖ")), ((u! "Titus"), (u! "ẖ")), ((u! "HK"), (u! "X")), ((u! "Itrans"), (u! "X")), ((u! "Devanagari"), (u! "ᳵ")), ((u! "Bengali"), (u! "ᳵ")), ((u! "Assamese"), (u! "ᳵ")), ((u! "Kannada"), (u! "ೱ")), ((u! "Tibetan"), (u! "ྈ")), ((u! "Brahmi"), (u! "𑀃")), ((u! "Sharada"), (u! "𑇂")), ((u! "Newa"), (u! "𑑠")), ((u! "Soyombo"), (u! "𑪄"))],
    ⟨2, some (u! "˂")⟩, ⟨2, some (u! "˂")⟩⟩,
  ⟨(u! "Upadhmaniya"), [((u! "IAST"), (u! "ḫ")), ((u! "ISO"), (u! "ḫ")), ((u! "IASTPali"), (u! "ḫ")), ((u! "Titus"), (u! "ḫ")), ((u! "HK"), (u! "F")), ((u! "Itrans"), (u! "F")), ((u! "Devanagari"), (u! "ᳶ")), ((u! "Bengali"), (u! "ᳶ")), ((u! "Assamese"), (u! "ᳶ")), ((u! "Kannada"), (u! "ೲ")), ((u! "Tibetan"), (u! "ྉ")), ((u! "Brahmi"), (u! "𑀄")), ((u! "Sharada"), (u! "𑇃")), ((u! "Newa"), (u! "𑑡")), ((u! "Soyombo"), (u! "𑪅"))],
    ⟨2, some (u! "˂")⟩, ⟨2, some (u! "˂")⟩⟩,
  ⟨(u! "shantone2"), [((u! "ShanLoC"), (u! "ႇ")), ((u! "Shan"), (u! "ႇ")), ((u! "ShanLoCRomanLoC"), (u! "̢"))],
    ⟨-1, some (u! "˂")⟩, ⟨-1, some (u! "˂")⟩⟩,
  ⟨(u! "shantone3"), [((u! "ShanLoC"), (u! "ႈ")), ((u! "Shan"), (u! "ႈ")), ((u! "ShanLoCRomanLoC"), (u! "̐"))],
    ⟨-1, some (u! "˂˂")⟩, ⟨-1, some (u! "˂˂")⟩⟩,
  ⟨(u! "shantone5"), [((u! "ShanLoC"), (u! "ႉ")), ((u! "Shan"), (u! "ႉ")), ((u! "ShanLoCRomanLoC"), (u! "ʹ"))],
    ⟨-1, some (u! "˂˂˂")⟩, ⟨-1, some (u! "˂˂˂")⟩⟩,
  ⟨(u! "shantone6"), [((u! "ShanLoC"), (u! "ႊ")), ((u! "Shan"), (u! "ႊ")), ((u! "ShanLoCRomanLoC"), (u! "˝"))],
    ⟨-1, some (u! "˂˂˂˂")⟩, ⟨-1, some (u! "˂˂˂˂")⟩⟩,
  ⟨(u! "KhmerTone3"), [((u! "KhmerLoC"), (u! "៍")), ((u! "KhmerLoCRomanLoC"), (u! "˚"))],
    ⟨-1, some (u! "˂˂˂")⟩, ⟨-1, some (u! "˂˂˂")⟩⟩,
  ⟨(u! "KhmerTone4"), [((u! "KhmerLoC"), (u! "៎")), ((u! "KhmerLoCRomanLoC"), (u! "’"))],
    ⟨-1, some (u! "˂˂˂")⟩, ⟨-1, some (u! "˂˂˂")⟩⟩,
  ⟨(u! "KhmerTone5"), [((u! "KhmerLoC"), (u! "៏")), ((u! "KhmerLoCRomanLoC"), (u! "ʻ"))],
    ⟨-1, some (u! "˂˂˂")⟩, ⟨-1, some (u! "˂˂˂")⟩⟩,
  ⟨(u! "Khmerbreve"), [((u! "KhmerLoC"), (u! "័")), ((u! "KhmerLoCRomanLoC"), (u! "̆"))],
    ⟨-1, some (u! "˂")⟩, ⟨-1, some (u! "˂")⟩⟩,
  ⟨(u! "Khmervisarga2"), [((u! "KhmerLoC"), (u! "ៈ")), ((u! "KhmerLoCRomanLoC"), (u! "̀"))],
    ⟨-1, some (u! "˂")⟩, ⟨-1, some (u! "˂")⟩⟩,
  ⟨(u! "Khmershortener"), [((u! "KhmerLoC"), (u! "់")), ((u! "KhmerLoCRomanLoC"), (u! "́"))],
    ⟨-1, some (u! "˂")⟩, ⟨-1, some (u! "˂")⟩⟩,
  ⟨(u! "ThamTone1"), [((u! "ThamLoC"), (u! "᩵")), ((u! "TaiTham"), (u! "᩵")), ((u! "LaoTham"), (u! "᩵")), ((u! "LueTham"), (u! "᩵")), ((u! "KhuenTham"), (u! "᩵")), ((u! "ThamLoCRomanLoC"), (u! "′"))],
    ⟨-1, some (u! "˂˂˂˂˂")⟩, ⟨-1, some (u! "˂˂˂˂˂")⟩⟩,
  ⟨(u! "ThamTone2"), [((u! "ThamLoC"), (u! "᩶")), ((u! "TaiTham"), (u! "᩶")), ((u! "LaoTham"), (u! "᩶")), ((u! "LueTham"), (u! "᩶")), ((u! "KhuenTham"), (u! "᩶")), ((u! "ThamLoCRomanLoC"), (u! "″"))],
    ⟨-1, some (u! "˂˂˂˂˂")⟩, ⟨-1, some (u! "˂˂˂˂˂")⟩⟩,
  ⟨(u! "ThamTone3"), [((u! "ThamLoC"), (u! "᩷")), ((u! "TaiTham"), (u! "᩷")), ((u! "LaoTham"), (u! "᩷")), ((u! "LueTham"), (u! "᩷")), ((u! "KhuenTham"), (u! "᩷")), ((u! "ThamLoCRomanLoC"), (u! "ˆ"))],
    ⟨-1, some (u! "˂˂˂˂˂")⟩, ⟨-1, some (u! "˂˂˂˂˂")⟩⟩,
  ⟨(u! "ThamTone4"), [((u! "ThamLoC"), (u! "᩸")), ((u! "TaiTham"), (u! "᩸")), ((u! "LaoTham"), (u! "᩸")), ((u! "LueTham"), (u! "᩸")), ((u! "KhuenTham"), (u! "᩸")), ((u! "ThamLoCRomanLoC"), (u! "ᴶ"))],
    ⟨-1, some (u! "˂˂˂˂˂")⟩, ⟨-1, some (u! "˂˂˂˂˂")⟩⟩,
  ⟨(u! "ThamTone5"), [((u! "ThamLoC"), (u! "᩹")), ((u! "TaiTham"), (u! "᩹")), ((u! "LaoTham"), (u! "᩹")), ((u! "LueTham"), (u! "᩹")), ((u! "KhuenTham"), (u! "᩹")), ((u! "ThamLoCRomanLoC"), (u! "ʵ"))],
    ⟨-1, some (u! "˂˂˂˂˂")⟩, ⟨-1, some (u! "˂˂˂˂˂")⟩⟩]

/-- FallBack.py:616-651 -/
def ModernVowelMap : List Entry := [
  ⟨(u! "ShanLoCeaeup"), [((u! "ShanLoC"), (u! "ဢႅ")), ((u! "Shan"), (u! "ဢႅ")), ((u! "ShanLoCRomanLoC"), (u! "è"))],
    ⟨0, some (u! "˂")⟩, ⟨0, some (u! "˂")⟩⟩,
  ⟨(u! "ShanLoCeae2"), [((u! "ShanLoC"), (u! "ဢေေ")), ((u! "Shan"), (u! "ဢေေ")), ((u! "ShanLoCRomanLoC"), (u! "è"))],
    ⟨0, some (u! "˂")⟩, ⟨0, some (u! "˂")⟩⟩,
  ⟨(u! "Thamhoe"), [((u! "ThamLoC"), (u! "ᩋᩮᩨᩬ")), ((u! "TaiTham"), (u! "ᩋᩮᩨᩬ")), ((u! "LaoTham"), (u! "ᩋᩮᩨᩬ")), ((u! "LueTham"), (u! "ᩋᩮᩨᩬ")), ((u! "KhuenTham"), (u! "ᩋᩮᩨᩬ")), ((u! "ThamLoCRomanLoC"), (u! "œ"))],
    ⟨1, some (u! "˂")⟩, ⟨1, some (u! "˂")⟩⟩,
  ⟨(u! "Thamoeclosed"), [((u! "ThamLoC"), (u! "ᩋᩮᩨ")), ((u! "TaiTham"), (u! "ᩋᩮᩨ")), ((u! "LaoTham"), (u! "ᩋᩮᩨ")), ((u! "LueTham"), (u! "ᩋᩮᩨ")), ((u! "KhuenTham"), (u! "ᩋᩮᩨ")), ((u! "ThamLoCRomanLoC"), (u! "œʽ"))],
    ⟨1, some (u! "˂")⟩, ⟨1, some (u! "˂")⟩⟩]

/-- FallBack.py:579-614 -/
def ModernVowelSignMap : List Entry := [
  ⟨(u! "ShanLoCeaeup"), [((u! "ShanLoC"), (u! "ႅ")), ((u! "Shan"), (u! "ႅ")), ((u! "ShanLoCRomanLoC"), (u! "èʽ"))],
    ⟨0, some (u! "˂")⟩, ⟨0, some (u! "˂")⟩⟩,
  ⟨(u! "ShanLoCeae2"), [((u! "ShanLoC"), (u! "ေေ")), ((u! "Shan"), (u! "ေေ")), ((u! "ShanLoCRomanLoC"), (u! "èʽ"))],
    ⟨0, some (u! "˂")⟩, ⟨0, some (u! "˂")⟩⟩,
  ⟨(u! "Thamhoe"), [((u! "ThamLoC"), (u! "ᩮᩨᩬ")), ((u! "TaiTham"), (u! "ᩮᩨᩬ")), ((u! "LaoTham"), (u! "ᩮᩨᩬ")), ((u! "KhuenTham"), (u! "ᩮᩨᩬ")), ((u! "LueTham"), (u! "ᩮᩨᩬ")), ((u! "ThamLoCRomanLoC"), (u! "œ"))],
    ⟨1, some (u! "˂")⟩, ⟨1, some (u! "˂")⟩⟩,
  ⟨(u! "Thamoeclosed"), [((u! "ThamLoC"), (u! "ᩮᩨ")), ((u! "TaiTham"), (u! "ᩮᩨ")), ((u! "LaoTham"), (u! "ᩮᩨ")), ((u! "KhuenTham"), (u! "ᩮᩨ")), ((u! "LueTham"), (u! "ᩮᩨ")), ((u! "ThamLoCRomanLoC"), (u! "œʽ"))],
    ⟨1, some (u! "˂")⟩, ⟨1, some (u! "˂")⟩⟩]

end Verif.FB
