import Verif.Model.Sec
import Verif.Model.BaseTables0
import Verif.Model.BaseTables1
import Verif.Model.BaseTables2
import Verif.Model.BaseTables3
import Verif.Model.BaseTables4
import Verif.Model.BaseTables5

/-! Script modules as written, by name. Generated by tools/gentables.py. -/

namespace Verif

/-- Script modules as written, by name. -/
def baseTables : List (PyStr × Tbl) := [
  (u! "Ahom", Base.Ahom),
  (u! "Assamese", Base.Assamese),
  (u! "Bengali", Base.Bengali),
  (u! "BengaliRaBa", Base.BengaliRaBa),
  (u! "Bhaiksuki", Base.Bhaiksuki),
  (u! "Brahmi", Base.Brahmi),
  (u! "Chakma", Base.Chakma),
  (u! "Devanagari", Base.Devanagari),
  (u! "Dogra", Base.Dogra),
  (u! "Grantha", Base.Grantha),
  (u! "GranthaGrantamil", Base.GranthaGrantamil),
  (u! "GranthaPandya", Base.GranthaPandya),
  (u! "Gujarati", Base.Gujarati),
  (u! "GunjalaGondi", Base.GunjalaGondi),
  (u! "Gurmukhi", Base.Gurmukhi),
  (u! "GurmukhiLoC", Base.GurmukhiLoC),
  (u! "Kaithi", Base.Kaithi),
  (u! "Kannada", Base.Kannada),
  (u! "Kharoshthi", Base.Kharoshthi),
  (u! "Khojki", Base.Khojki),
  (u! "Khudawadi", Base.Khudawadi),
  (u! "Lepcha", Base.Lepcha),
  (u! "Limbu", Base.Limbu),
  (u! "LimbuLoC", Base.LimbuLoC),
  (u! "Mahajani", Base.Mahajani),
  (u! "Malayalam", Base.Malayalam),
  (u! "MasaramGondi", Base.MasaramGondi),
  (u! "MeeteiMayek", Base.MeeteiMayek),
  (u! "Modi", Base.Modi),
  (u! "Multani", Base.Multani),
  (u! "Nandinagari", Base.Nandinagari),
  (u! "Newa", Base.Newa),
  (u! "Oriya", Base.Oriya),
  (u! "Ranjana", Base.Ranjana),
  (u! "Saurashtra", Base.Saurashtra),
  (u! "Shahmukhi", Base.Shahmukhi),
  (u! "Sharada", Base.Sharada),
  (u! "SiddhamDevanagari", Base.SiddhamDevanagari),
  (u! "Sinhala", Base.Sinhala),
  (u! "SylotiNagri", Base.SylotiNagri),
  (u! "Takri", Base.Takri),
  (u! "Tamil", Base.Tamil),
  (u! "TamilBrahmi", Base.TamilBrahmi),
  (u! "TamilExtended", Base.TamilExtended),
  (u! "TamilGrantha", Base.TamilGrantha),
  (u! "Telugu", Base.Telugu),
  (u! "Tirhuta", Base.Tirhuta),
  (u! "Urdu", Base.Urdu),
  (u! "Vatteluttu", Base.Vatteluttu),
  (u! "Balinese", Base.Balinese),
  (u! "BatakKaro", Base.BatakKaro),
  (u! "BatakManda", Base.BatakManda),
  (u! "BatakPakpak", Base.BatakPakpak),
  (u! "BatakSima", Base.BatakSima),
  (u! "BatakToba", Base.BatakToba),
  (u! "Buginese", Base.Buginese),
  (u! "Buhid", Base.Buhid),
  (u! "Burmese", Base.Burmese),
  (u! "Cham", Base.Cham),
  (u! "DivesAkuru", Base.DivesAkuru),
  (u! "Hanunoo", Base.Hanunoo),
  (u! "Javanese", Base.Javanese),
  (u! "Kawi", Base.Kawi),
  (u! "KhamtiShan", Base.KhamtiShan),
  (u! "Khmer", Base.Khmer),
  (u! "KhmerLoC", Base.KhmerLoC),
  (u! "KhomThai", Base.KhomThai),
  (u! "KhuenTham", Base.KhuenTham),
  (u! "Lao", Base.Lao),
  (u! "Lao2", Base.Lao2),
  (u! "LaoPali", Base.LaoPali),
  (u! "LaoTham", Base.LaoTham),
  (u! "LueTham", Base.LueTham),
  (u! "Makasar", Base.Makasar),
  (u! "Marchen", Base.Marchen),
  (u! "Mon", Base.Mon),
  (u! "Pallava", Base.Pallava),
  (u! "PhagsPa", Base.PhagsPa),
  (u! "Rejang", Base.Rejang),
  (u! "Shan", Base.Shan),
  (u! "ShanLoC", Base.ShanLoC),
  (u! "Siddham", Base.Siddham),
  (u! "Soyombo", Base.Soyombo),
  (u! "Sundanese", Base.Sundanese),
  (u! "Tagalog", Base.Tagalog),
  (u! "Tagbanwa", Base.Tagbanwa),
  (u! "TaiLaing", Base.TaiLaing),
  (u! "TaiTham", Base.TaiTham),
  (u! "Thaana", Base.Thaana),
  (u! "Thai", Base.Thai),
  (u! "ThamLoC", Base.ThamLoC),
  (u! "Tibetan", Base.Tibetan),
  (u! "TibetanLoC", Base.TibetanLoC),
  (u! "ZanabazarSquare", Base.ZanabazarSquare),
  (u! "Aksharaa", Base.Aksharaa),
  (u! "Ariyaka", Base.Ariyaka),
  (u! "AssameseRomanLoC", Base.AssameseRomanLoC),
  (u! "Avestan", Base.Avestan),
  (u! "BalineseRomanLoC", Base.BalineseRomanLoC),
  (u! "BalineseSimpleRomanLoC", Base.BalineseSimpleRomanLoC),
  (u! "BarahaNorth", Base.BarahaNorth),
  (u! "BarahaSouth", Base.BarahaSouth),
  (u! "BengaliRomanLoC", Base.BengaliRomanLoC),
  (u! "BurmeseRomanLoC", Base.BurmeseRomanLoC),
  (u! "DevanagariRomanLoC", Base.DevanagariRomanLoC),
  (u! "GujaratiRomanLoC", Base.GujaratiRomanLoC),
  (u! "GurmukhiLoCRomanLoC", Base.GurmukhiLoCRomanLoC),
  (u! "HK", Base.HK),
  (u! "HanifiRohingya", Base.HanifiRohingya),
  (u! "IAST", Base.IAST),
  (u! "IASTPali", Base.IASTPali),
  (u! "IPA", Base.IPA),
  (u! "ISO", Base.ISO),
  (u! "ISOPali", Base.ISOPali),
  (u! "Inter", Base.Inter),
  (u! "Itrans", Base.Itrans),
  (u! "JavaneseRomanLoC", Base.JavaneseRomanLoC),
  (u! "JavaneseSimpleRomanLoC", Base.JavaneseSimpleRomanLoC),
  (u! "KannadaRomanLoC", Base.KannadaRomanLoC),
  (u! "KhmerLoCRomanLoC", Base.KhmerLoCRomanLoC),
  (u! "LimbuLoCRomanLoC", Base.LimbuLoCRomanLoC),
  (u! "Mongolian", Base.Mongolian),
  (u! "Mro", Base.Mro),
  (u! "OriyaRomanLoC", Base.OriyaRomanLoC),
  (u! "RomanColloquial", Base.RomanColloquial),
  (u! "RomanKana", Base.RomanKana),
  (u! "RomanReadable", Base.RomanReadable),
  (u! "RomanSemitic", Base.RomanSemitic),
  (u! "RussianCyrillic", Base.RussianCyrillic),
  (u! "SLP1", Base.SLP1),
  (u! "Santali", Base.Santali),
  (u! "ShanLoCRomanLoC", Base.ShanLoCRomanLoC),
  (u! "SinhalaRomanLoC", Base.SinhalaRomanLoC),
  (u! "SoraSompeng", Base.SoraSompeng),
  (u! "TeluguRomanLoC", Base.TeluguRomanLoC),
  (u! "ThamLoCRomanLoC", Base.ThamLoCRomanLoC),
  (u! "TibetanLoCRomanLoC", Base.TibetanLoCRomanLoC),
  (u! "Titus", Base.Titus),
  (u! "TolongSiki", Base.TolongSiki),
  (u! "Velthuis", Base.Velthuis),
  (u! "WX-kok", Base.WX_kok),
  (u! "WX", Base.WX),
  (u! "Wancho", Base.Wancho),
  (u! "WarangCiti", Base.WarangCiti),
  (u! "Hebrew", Base.Hebrew),
  (u! "OldPersian", Base.OldPersian)]

end Verif
