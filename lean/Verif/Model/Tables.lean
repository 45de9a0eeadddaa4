import Verif.Model.Sec
import Verif.Model.ExtTables0
import Verif.Model.ExtTables1
import Verif.Model.ExtTables2
import Verif.Model.ExtTables3
import Verif.Model.ExtTables4
import Verif.Model.ExtTables5

/-!
# Name lookup: `ScriptPath`, `CrunchSymbols`, `CrunchList` (GeneralMap.py:12-37)

Generated by tools/gentables.py.
-/

namespace Verif

/-- Script modules reachable through `ScriptPath` (GeneralMap.py:12-20), with their (extended) tables.
`RomanLoC` is listed in `GeneralMap.Roman` but has no module. -/
def scriptTables : List (PyStr × Tbl) := [
  (u! "Ahom", Ext.Ahom),
  (u! "Assamese", Ext.Assamese),
  (u! "Bengali", Ext.Bengali),
  (u! "BengaliRaBa", Ext.BengaliRaBa),
  (u! "Bhaiksuki", Ext.Bhaiksuki),
  (u! "Brahmi", Ext.Brahmi),
  (u! "Chakma", Ext.Chakma),
  (u! "Devanagari", Ext.Devanagari),
  (u! "Dogra", Ext.Dogra),
  (u! "Grantha", Ext.Grantha),
  (u! "GranthaGrantamil", Ext.GranthaGrantamil),
  (u! "GranthaPandya", Ext.GranthaPandya),
  (u! "Gujarati", Ext.Gujarati),
  (u! "GunjalaGondi", Ext.GunjalaGondi),
  (u! "Gurmukhi", Ext.Gurmukhi),
  (u! "GurmukhiLoC", Ext.GurmukhiLoC),
  (u! "Kaithi", Ext.Kaithi),
  (u! "Kannada", Ext.Kannada),
  (u! "Kharoshthi", Ext.Kharoshthi),
  (u! "Khojki", Ext.Khojki),
  (u! "Khudawadi", Ext.Khudawadi),
  (u! "Lepcha", Ext.Lepcha),
  (u! "Limbu", Ext.Limbu),
  (u! "LimbuLoC", Ext.LimbuLoC),
  (u! "Mahajani", Ext.Mahajani),
  (u! "Malayalam", Ext.Malayalam),
  (u! "MasaramGondi", Ext.MasaramGondi),
  (u! "MeeteiMayek", Ext.MeeteiMayek),
  (u! "Modi", Ext.Modi),
  (u! "Multani", Ext.Multani),
  (u! "Nandinagari", Ext.Nandinagari),
  (u! "Newa", Ext.Newa),
  (u! "Oriya", Ext.Oriya),
  (u! "Ranjana", Ext.Ranjana),
  (u! "Saurashtra", Ext.Saurashtra),
  (u! "Shahmukhi", Ext.Shahmukhi),
  (u! "Sharada", Ext.Sharada),
  (u! "SiddhamDevanagari", Ext.SiddhamDevanagari),
  (u! "Sinhala", Ext.Sinhala),
  (u! "SylotiNagri", Ext.SylotiNagri),
  (u! "Takri", Ext.Takri),
  (u! "Tamil", Ext.Tamil),
  (u! "TamilBrahmi", Ext.TamilBrahmi),
  (u! "TamilExtended", Ext.TamilExtended),
  (u! "TamilGrantha", Ext.TamilGrantha),
  (u! "Telugu", Ext.Telugu),
  (u! "Tirhuta", Ext.Tirhuta),
  (u! "Urdu", Ext.Urdu),
  (u! "Vatteluttu", Ext.Vatteluttu),
  (u! "Balinese", Ext.Balinese),
  (u! "BatakKaro", Ext.BatakKaro),
  (u! "BatakManda", Ext.BatakManda),
  (u! "BatakPakpak", Ext.BatakPakpak),
  (u! "BatakSima", Ext.BatakSima),
  (u! "BatakToba", Ext.BatakToba),
  (u! "Buginese", Ext.Buginese),
  (u! "Buhid", Ext.Buhid),
  (u! "Burmese", Ext.Burmese),
  (u! "Cham", Ext.Cham),
  (u! "DivesAkuru", Ext.DivesAkuru),
  (u! "Hanunoo", Ext.Hanunoo),
  (u! "Javanese", Ext.Javanese),
  (u! "Kawi", Ext.Kawi),
  (u! "KhamtiShan", Ext.KhamtiShan),
  (u! "Khmer", Ext.Khmer),
  (u! "KhmerLoC", Ext.KhmerLoC),
  (u! "KhomThai", Ext.KhomThai),
  (u! "KhuenTham", Ext.KhuenTham),
  (u! "Lao", Ext.Lao),
  (u! "Lao2", Ext.Lao2),
  (u! "LaoPali", Ext.LaoPali),
  (u! "LaoTham", Ext.LaoTham),
  (u! "LueTham", Ext.LueTham),
  (u! "Makasar", Ext.Makasar),
  (u! "Marchen", Ext.Marchen),
  (u! "Mon", Ext.Mon),
  (u! "Pallava", Ext.Pallava),
  (u! "PhagsPa", Ext.PhagsPa),
  (u! "Rejang", Ext.Rejang),
  (u! "Shan", Ext.Shan),
  (u! "ShanLoC", Ext.ShanLoC),
  (u! "Siddham", Ext.Siddham),
  (u! "Soyombo", Ext.Soyombo),
  (u! "Sundanese", Ext.Sundanese),
  (u! "Tagalog", Ext.Tagalog),
  (u! "Tagbanwa", Ext.Tagbanwa),
  (u! "TaiLaing", Ext.TaiLaing),
  (u! "TaiTham", Ext.TaiTham),
  (u! "Thaana", Ext.Thaana),
  (u! "Thai", Ext.Thai),
  (u! "ThamLoC", Ext.ThamLoC),
  (u! "Tibetan", Ext.Tibetan),
  (u! "TibetanLoC", Ext.TibetanLoC),
  (u! "ZanabazarSquare", Ext.ZanabazarSquare),
  (u! "Aksharaa", Ext.Aksharaa),
  (u! "Ariyaka", Ext.Ariyaka),
  (u! "AssameseRomanLoC", Ext.AssameseRomanLoC),
  (u! "Avestan", Ext.Avestan),
  (u! "BalineseRomanLoC", Ext.BalineseRomanLoC),
  (u! "BalineseSimpleRomanLoC", Ext.BalineseSimpleRomanLoC),
  (u! "BarahaNorth", Ext.BarahaNorth),
  (u! "BarahaSouth", Ext.BarahaSouth),
  (u! "BengaliRomanLoC", Ext.BengaliRomanLoC),
  (u! "BurmeseRomanLoC", Ext.BurmeseRomanLoC),
  (u! "DevanagariRomanLoC", Ext.DevanagariRomanLoC),
  (u! "GujaratiRomanLoC", Ext.GujaratiRomanLoC),
  (u! "GurmukhiLoCRomanLoC", Ext.GurmukhiLoCRomanLoC),
  (u! "HK", Ext.HK),
  (u! "HanifiRohingya", Ext.HanifiRohingya),
  (u! "IAST", Ext.IAST),
  (u! "IASTPali", Ext.IASTPali),
  (u! "IPA", Ext.IPA),
  (u! "ISO", Ext.ISO),
  (u! "ISOPali", Ext.ISOPali),
  (u! "Inter", Ext.Inter),
  (u! "Itrans", Ext.Itrans),
  (u! "JavaneseRomanLoC", Ext.JavaneseRomanLoC),
  (u! "JavaneseSimpleRomanLoC", Ext.JavaneseSimpleRomanLoC),
  (u! "KannadaRomanLoC", Ext.KannadaRomanLoC),
  (u! "KhmerLoCRomanLoC", Ext.KhmerLoCRomanLoC),
  (u! "LimbuLoCRomanLoC", Ext.LimbuLoCRomanLoC),
  (u! "Mongolian", Ext.Mongolian),
  (u! "Mro", Ext.Mro),
  (u! "OriyaRomanLoC", Ext.OriyaRomanLoC),
  (u! "RomanColloquial", Ext.RomanColloquial),
  (u! "RomanKana", Ext.RomanKana),
  (u! "RomanReadable", Ext.RomanReadable),
  (u! "RomanSemitic", Ext.RomanSemitic),
  (u! "RussianCyrillic", Ext.RussianCyrillic),
  (u! "SLP1", Ext.SLP1),
  (u! "Santali", Ext.Santali),
  (u! "ShanLoCRomanLoC", Ext.ShanLoCRomanLoC),
  (u! "SinhalaRomanLoC", Ext.SinhalaRomanLoC),
  (u! "SoraSompeng", Ext.SoraSompeng),
  (u! "TeluguRomanLoC", Ext.TeluguRomanLoC),
  (u! "ThamLoCRomanLoC", Ext.ThamLoCRomanLoC),
  (u! "TibetanLoCRomanLoC", Ext.TibetanLoCRomanLoC),
  (u! "Titus", Ext.Titus),
  (u! "TolongSiki", Ext.TolongSiki),
  (u! "Velthuis", Ext.Velthuis),
  (u! "WX-kok", Ext.WX_kok),
  (u! "WX", Ext.WX),
  (u! "Wancho", Ext.Wancho),
  (u! "WarangCiti", Ext.WarangCiti),
  (u! "Hebrew", Ext.Hebrew),
  (u! "OldPersian", Ext.OldPersian)]

end Verif
