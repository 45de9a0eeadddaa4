DivesAkuru,TibetanLoC,GurmukhiLoC,LimbuLoC,ThamLoC,KhmerLoC,ShanLoC,BengaliRaBa,RomanSemitic,Makasar,Nandinagari,Kawi,Pallava,LaoTham,LueTham,KhuenTham,TamilExtended,Marchen,MasaramGondi,GunjalaGondi,Soyombo,Dogra,KhomThai,KhamtiShan,TaiLaing,Mon,Khojki,Shan,Ranjana,ZanabazarSquare,Rejang,GranthaGrantamil,Devanagari,Multani,Ahom,Mahajani,Lao2,Hanunoo,Buhid,Siddham,SiddhamDevanagari,GranthaPandya,Vatteluttu,Khudawadi,Bhaiksuki,Sharada,Newa,Takri,SylotiNagri,Tirhuta,Modi,Kaithi,Kharoshthi,Telugu,Kannada,Malayalam,Gujarati,Bengali,Oriya,Gurmukhi,Tamil,Assamese,Saurashtra,TamilBrahmi,Grantha,TamilGrantha,Sinhala,Khmer,Burmese,Balinese,Javanese,Tibetan,Thai,OldPersian,Limbu,Lepcha,Sundanese,Tagalog,Tagbanwa,Buginese,Chakma,PhagsPa,MeeteiMayek,LaoPali,BatakKaro,BatakPakpak,BatakSima,BatakToba,BatakManda,Cham,TaiTham,Lao,Brahmi,GurmukhiLoCRomanLoC,TibetanLoCRomanLoC,LimbuLoCRomanLoC,BalineseSimpleRomanLoC,BalineseRomanLoC,JavaneseSimpleRomanLoC,JavaneseRomanLoC,KannadaRomanLoC,TeluguRomanLoC,SinhalaRomanLoC,OriyaRomanLoC,AssameseRomanLoC,BengaliRomanLoC,GujaratiRomanLoC,DevanagariRomanLoC,ThamLoCRomanLoC,KhmerLoCRomanLoC,ShanLoCRomanLoC,BurmeseRomanLoC,RomanColloquial,ISOPali,RomanKana,BarahaNorth,BarahaSouth,Mongolian,SLP1,Wancho,Mro,IASTPali,HanifiRohingya,Ariyaka,RomanReadable,Aksharaa,WarangCiti,SoraSompeng,WX-kok,Avestan,ISO,IAST,HK,Titus,Velthuis,WX,Inter,IPA,TolongSiki,Santali,RussianCyrillic
DivesAkuru,TibetanLoC,GurmukhiLoC,LimbuLoC,ThamLoC,KhmerLoC,ShanLoC,BengaliRaBa,RomanSemitic,Makasar,Nandinagari,Kawi,Shahmukhi,Pallava,Hebrew,LaoTham,LueTham,KhuenTham,TamilExtended,Marchen,MasaramGondi,GunjalaGondi,Soyombo,Dogra,KhomThai,KhamtiShan,TaiLaing,Mon,Khojki,Shan,Ranjana,ZanabazarSquare,Rejang,GranthaGrantamil,Devanagari,Multani,Ahom,Mahajani,Lao2,Hanunoo,Buhid,Siddham,SiddhamDevanagari,GranthaPandya,Vatteluttu,Khudawadi,Bhaiksuki,Sharada,Newa,Takri,SylotiNagri,Tirhuta,Modi,Kaithi,Kharoshthi,Telugu,Kannada,Malayalam,Gujarati,Bengali,Oriya,Gurmukhi,Tamil,Assamese,Saurashtra,TamilBrahmi,Grantha,TamilGrantha,Sinhala,Khmer,Burmese,Urdu,Balinese,Javanese,Thaana,Tibetan,Thai,OldPersian,Limbu,Lepcha,Sundanese,Tagalog,Tagbanwa,Buginese,Chakma,PhagsPa,MeeteiMayek,LaoPali,BatakKaro,BatakPakpak,BatakSima,BatakToba,BatakManda,Cham,TaiTham,Lao,Brahmi,GurmukhiLoCRomanLoC,TibetanLoCRomanLoC,LimbuLoCRomanLoC,BalineseSimpleRomanLoC,BalineseRomanLoC,JavaneseSimpleRomanLoC,JavaneseRomanLoC,KannadaRomanLoC,TeluguRomanLoC,SinhalaRomanLoC,OriyaRomanLoC,AssameseRomanLoC,BengaliRomanLoC,GujaratiRomanLoC,DevanagariRomanLoC,ThamLoCRomanLoC,KhmerLoCRomanLoC,ShanLoCRomanLoC,BurmeseRomanLoC,RomanColloquial,ISOPali,RomanKana,BarahaNorth,BarahaSouth,Mongolian,SLP1,Wancho,Mro,IASTPali,HanifiRohingya,Ariyaka,RomanReadable,Aksharaa,WarangCiti,SoraSompeng,WX-kok,Avestan,ISO,IAST,HK,Titus,Itrans,Velthuis,WX,Inter,TolongSiki,Santali,RussianCyrillic
