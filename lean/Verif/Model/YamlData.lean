import Verif.Core.Str

/-!
# The data of yaml/aksharamukha-scripts.yaml and yaml/wikitra2-data.yaml

Generated by tools/gendata.py.  Only the fields the code reads.
-/

set_option maxRecDepth 100000

namespace Verif.Yaml

/-- One entry of yaml/aksharamukha-scripts.yaml. -/
structure Script where
  /-- the key -/
  name : PyStr
  /-- `script` -/
  tag : PyStr
  /-- `lang`, if present -/
  lang : Option PyStr

/-- yaml/aksharamukha-scripts.yaml, in file order -/
def scripts : List Script := [
  ⟨(u! "Ahom"), (u! "Ahom"), some (u! "aho")⟩,
  ⟨(u! "Ariyaka"), (u! "Zzzz"), none⟩,
  ⟨(u! "Assamese"), (u! "Beng"), some (u! "as")⟩,
  ⟨(u! "Avestan"), (u! "Avst"), some (u! "ae, ave")⟩,
  ⟨(u! "Balinese"), (u! "Bali"), some (u! "ban")⟩,
  ⟨(u! "BatakKaro"), (u! "Batk"), some (u! "btx")⟩,
  ⟨(u! "BatakManda"), (u! "Batk"), some (u! "btm")⟩,
  ⟨(u! "BatakPakpak"), (u! "Batk"), some (u! "btd")⟩,
  ⟨(u! "BatakSima"), (u! "Batk"), some (u! "bts")⟩,
  ⟨(u! "BatakToba"), (u! "Batk"), some (u! "bbc")⟩,
  ⟨(u! "Bengali"), (u! "Beng"), some (u! "bn, ben")⟩,
  ⟨(u! "Bhaiksuki"), (u! "Bhks"), none⟩,
  ⟨(u! "Brahmi"), (u! "Brah"), none⟩,
  ⟨(u! "Buginese"), (u! "Bugi"), some (u! "bug")⟩,
  ⟨(u! "Buhid"), (u! "Buhd"), some (u! "bku")⟩,
  ⟨(u! "Burmese"), (u! "Mymr"), some (u! "my, bur, mya")⟩,
  ⟨(u! "Chakma"), (u! "Cakm"), some (u! "ccp")⟩,
  ⟨(u! "Cham"), (u! "Cham"), some (u! "cja, cjm")⟩,
  ⟨(u! "Devanagari"), (u! "Deva"), some (u! "hi, hin, mr, mar")⟩,
  ⟨(u! "Dogra"), (u! "Dogr"), some (u! "doi")⟩,
  ⟨(u! "Grantha"), (u! "Gran"), none⟩,
  ⟨(u! "GranthaPandya"), (u! "Zzzz"), none⟩,
  ⟨(u! "Gujarati"), (u! "Gujr"), some (u! "gu, guj")⟩,
  ⟨(u! "GunjalaGondi"), (u! "Gong"), some (u! "gon")⟩,
  ⟨(u! "Gurmukhi"), (u! "Guru"), some (u! "pa, pan, pnb")⟩,
  ⟨(u! "HanifiRohingya"), (u! "Rohg"), some (u! "rhg")⟩,
  ⟨(u! "Hanunoo"), (u! "Hano"), some (u! "hnn")⟩,
  ⟨(u! "Hebrew"), (u! "Hebr"), some (u! "he, heb")⟩,
  ⟨(u! "Hiragana"), (u! "Hira"), some (u! "ja, jpn")⟩,
  ⟨(u! "Javanese"), (u! "Java"), some (u! "jv, jav")⟩,
  ⟨(u! "Kaithi"), (u! "Kthi"), some (u! "hi, hin, bho, mag, awa, anp")⟩,
  ⟨(u! "Kannada"), (u! "Knda"), some (u! "kn, kan")⟩,
  ⟨(u! "Katakana"), (u! "Kana"), some (u! "ja, jpn")⟩,
  ⟨(u! "Kawi"), (u! "Kawi"), some (u! "kaw")⟩,
  ⟨(u! "KhamtiShan"), (u! "Mymr"), some (u! "kht")⟩,
  ⟨(u! "Kharoshthi"), (u! "Khar"), some (u! "pgd")⟩,
  ⟨(u! "Khmer"), (u! "Khmr"), some (u! "km, khm")⟩,
  ⟨(u! "Khojki"), (u! "Khoj"), none⟩,
  ⟨(u! "KhomThai"), (u! "Zzzz"), none⟩,
  ⟨(u! "Khudawadi"), (u! "Sind"), some (u! "sd, snd")⟩,
  ⟨(u! "KhuenTham"), (u! "Lana"), some (u! "kkh")⟩,
  ⟨(u! "Lao"), (u! "Laoo"), some (u! "lo, lau")⟩,
  ⟨(u! "LaoPali"), (u! "Laoo"), some (u! "san, pi, pli")⟩,
  ⟨(u! "LaoTham"), (u! "Lana"), some (u! "lo, lau")⟩,
  ⟨(u! "Lepcha"), (u! "Lepc"), some (u! "lep")⟩,
  ⟨(u! "Limbu"), (u! "Limb"), some (u! "lif")⟩,
  ⟨(u! "LueTham"), (u! "Lana"), some (u! "khb")⟩,
  ⟨(u! "Mahajani"), (u! "Mahj"), some (u! "mwr")⟩,
  ⟨(u! "Makasar"), (u! "Makar"), some (u! "mak")⟩,
  ⟨(u! "Malayalam"), (u! "Mlym"), some (u! "ml, mal")⟩,
  ⟨(u! "Marchen"), (u! "Marc"), some (u! "xzh")⟩,
  ⟨(u! "MasaramGondi"), (u! "Gonm"), some (u! "gon")⟩,
  ⟨(u! "MeeteiMayek"), (u! "Mtei"), some (u! "mni")⟩,
  ⟨(u! "Modi"), (u! "Modi"), some (u! "mr, mar")⟩,
  ⟨(u! "Mon"), (u! "Mymr"), some (u! "mnw")⟩,
  ⟨(u! "Mongolian"), (u! "Mong"), none⟩,
  ⟨(u! "Mro"), (u! "Mroo"), some (u! "mro")⟩,
  ⟨(u! "Multani"), (u! "Mult"), some (u! "skr")⟩,
  ⟨(u! "Nandinagari"), (u! "Nand"), none⟩,
  ⟨(u! "Newa"), (u! "Newa"), some (u! "new, nwx")⟩,
  ⟨(u! "OldPersian"), (u! "Xpeo"), some (u! "fa, per")⟩,
  ⟨(u! "Oriya"), (u! "Orya"), some (u! "or, ori, ory")⟩,
  ⟨(u! "Pallava"), (u! "Zzzz"), none⟩,
  ⟨(u! "PhagsPa"), (u! "Phag"), none⟩,
  ⟨(u! "Ranjana"), (u! "Ranj"), some (u! "new, nwx")⟩,
  ⟨(u! "Rejang"), (u! "Rjng"), some (u! "rej")⟩,
  ⟨(u! "RussianCyrillic"), (u! "Cyrl"), some (u! "ru, rus")⟩,
  ⟨(u! "Santali"), (u! "Olck"), some (u! "sat, mjx")⟩,
  ⟨(u! "Saurashtra"), (u! "Saur"), some (u! "saz")⟩,
  ⟨(u! "Shahmukhi"), (u! "Arab"), some (u! "pa, pan, pnb")⟩,
  ⟨(u! "Shan"), (u! "Mymr"), some (u! "shn")⟩,
  ⟨(u! "Sharada"), (u! "Shrd"), some (u! "ks, kas")⟩,
  ⟨(u! "Siddham"), (u! "Sidd"), none⟩,
  ⟨(u! "Sinhala"), (u! "Sinh"), some (u! "si, sin")⟩,
  ⟨(u! "SoraSompeng"), (u! "Sora"), some (u! "srb")⟩,
  ⟨(u! "Soyombo"), (u! "Soyo"), none⟩,
  ⟨(u! "Sundanese"), (u! "Sund"), some (u! "su, sun, bac, osn")⟩,
  ⟨(u! "SylotiNagri"), (u! "Sylo"), some (u! "syl")⟩,
  ⟨(u! "Tagalog"), (u! "Tglg"), some (u! "tl, tgl,fil")⟩,
  ⟨(u! "Tagbanwa"), (u! "Tagb"), some (u! "tbw, tbk, tgt")⟩,
  ⟨(u! "TaiLaing"), (u! "Mymr"), some (u! "tjl")⟩,
  ⟨(u! "TaiTham"), (u! "Lana"), none⟩,
  ⟨(u! "Takri"), (u! "Takr"), some (u! "doi")⟩,
  ⟨(u! "Tamil"), (u! "Taml"), some (u! "ta, tam")⟩,
  ⟨(u! "TamilBrahmi"), (u! "Brah"), some (u! "oty")⟩,
  ⟨(u! "TamilExtended"), (u! "Zzzz"), none⟩,
  ⟨(u! "Telugu"), (u! "Telu"), some (u! "te, tel")⟩,
  ⟨(u! "Thaana"), (u! "Thaa"), some (u! "dv, div")⟩,
  ⟨(u! "Thai"), (u! "Thai"), some (u! "th, tha")⟩,
  ⟨(u! "Tibetan"), (u! "Tibt"), some (u! "bo, bod, tib")⟩,
  ⟨(u! "Tirhuta"), (u! "Tirh"), some (u! "mai")⟩,
  ⟨(u! "Urdu"), (u! "Arab"), some (u! "ur, urd")⟩,
  ⟨(u! "Arab"), (u! "Arab"), some (u! "ar, ara")⟩,
  ⟨(u! "Arab-Fa"), (u! "Arab"), some (u! "fa, fas, per")⟩,
  ⟨(u! "Vatteluttu"), (u! "Zzzz"), some (u! "ta, tam, oty, ml, mal")⟩,
  ⟨(u! "Wancho"), (u! "Wcho"), some (u! "nnp")⟩,
  ⟨(u! "WarangCiti"), (u! "Wara"), some (u! "hoc")⟩,
  ⟨(u! "ZanabazarSquare"), (u! "Zanb"), none⟩,
  ⟨(u! "Elym"), (u! "Elym"), some (u! "arc")⟩,
  ⟨(u! "Ethi"), (u! "Ethi"), some (u! "gez")⟩,
  ⟨(u! "Hatr"), (u! "Hatr"), some (u! "arc")⟩,
  ⟨(u! "Hebr-Ar"), (u! "Hebr-Ar"), some (u! "Ar, Ara")⟩,
  ⟨(u! "Armi"), (u! "Armi"), some (u! "arc")⟩,
  ⟨(u! "Phli"), (u! "Phli"), some (u! "pal")⟩,
  ⟨(u! "Prti"), (u! "Prti"), some (u! "pal")⟩,
  ⟨(u! "Mani"), (u! "Mani"), some (u! "pal")⟩,
  ⟨(u! "Nbat"), (u! "Nbat"), some (u! "qhy")⟩,
  ⟨(u! "Narb"), (u! "Narb"), some (u! "ar, ara")⟩,
  ⟨(u! "Sogo"), (u! "Sogo"), some (u! "sog")⟩,
  ⟨(u! "Sarb"), (u! "Sarb"), some (u! "ar, ara")⟩,
  ⟨(u! "Palm"), (u! "Palm"), some (u! "arc")⟩,
  ⟨(u! "Phnx"), (u! "Phnx"), some (u! "phn")⟩,
  ⟨(u! "Phlp"), (u! "Phlp"), some (u! "pal")⟩,
  ⟨(u! "Samr"), (u! "Samr"), some (u! "sam")⟩,
  ⟨(u! "Sogd"), (u! "Sogd"), some (u! "sog")⟩,
  ⟨(u! "Syre"), (u! "Syre"), some (u! "Syr")⟩,
  ⟨(u! "Syrn"), (u! "Syrn"), some (u! "Syr")⟩,
  ⟨(u! "Syrj"), (u! "Syrj"), some (u! "Syr")⟩,
  ⟨(u! "Ugar"), (u! "Ugar"), some (u! "uga")⟩]

/-- yaml/wikitra2-data.yaml: for each script tag the language tags and their `population`.
A key that YAML does not read as a string (`no`) is written `?`: it equals no language tag. -/
def wiki : List (PyStr × List (PyStr × Nat)) := [
  ((u! "Aghb"), [((u! "und"), 0), ((u! "xag"), 0)]),
  ((u! "Ahom"), [((u! "aho"), 0), ((u! "und"), 0)]),
  ((u! "Arab"), [((u! "ar"), 350901502), ((u! "awa"), 25862924), ((u! "bhd"), 0), ((u! "chg"), 0), ((u! "ckb"), 11086549), ((u! "cpg"), 0), ((u! "dng"), 0), ((u! "doi"), 2652180), ((u! "hac"), 0), ((u! "inc-opa"), 0), ((u! "kfr"), 994568), ((u! "kk"), 13637392), ((u! "kmr"), 0), ((u! "kok"), 4906533), ((u! "ks"), 5723031), ((u! "ky"), 3338267), ((u! "lki"), 645417), ((u! "nog"), 0), ((u! "pa"), 201120217), ((u! "ur"), 170000000), ((u! "rif"), 3692411), ((u! "sdh"), 3142162), ((u! "shi"), 6187736), ((u! "tg"), 9644223), ((u! "tt"), 1984108), ((u! "tzm"), 3485047), ((u! "ug"), 8052967), ((u! "und"), 350901502), ((u! "xco"), 0), ((u! "xng"), 0), ((u! "xnr"), 2121744)]),
  ((u! "Armi"), [((u! "arc"), 0), ((u! "und"), 0), ((u! "xco"), 0)]),
  ((u! "Armn"), [((u! "axm"), 0), ((u! "hy"), 5317273), ((u! "kmr"), 0), ((u! "qwm"), 0), ((u! "rmi"), 0), ((u! "udi"), 0), ((u! "und"), 0), ((u! "xcl"), 0)]),
  ((u! "Avst"), [((u! "ae"), 0), ((u! "pal"), 0), ((u! "und"), 0)]),
  ((u! "Bali"), [((u! "sa"), 15913), ((u! "und"), 15913)]),
  ((u! "Beng"), [((u! "as"), 17239170), ((u! "bn"), 267280377), ((u! "inc-mas"), 0), ((u! "inc-mbn"), 0), ((u! "inc-oas"), 0), ((u! "inc-ork"), 0), ((u! "pi"), 0), ((u! "rhg"), 0), ((u! "rkt"), 16274502), ((u! "sa"), 15913), ((u! "syl"), 8467932), ((u! "und"), 0)]),
  ((u! "Bhks"), [((u! "sa"), 15913), ((u! "und"), 15913)]),
  ((u! "Brah"), [((u! "inc-ash"), 0), ((u! "inc-mgd"), 0), ((u! "inc-pra"), 0), ((u! "inc-psc"), 0), ((u! "kho"), 0), ((u! "oty"), 0), ((u! "pi"), 0), ((u! "pka"), 0), ((u! "pmh"), 0), ((u! "psu"), 0), ((u! "sa"), 15913), ((u! "und"), 0), ((u! "xtq"), 0)]),
  ((u! "Brai"), [((u! "ar"), 350901502), ((u! "el"), 12384863), ((u! "hy"), 5317273), ((u! "ko"), 78187423), ((u! "ru"), 195630064), ((u! "th"), 55181920), ((u! "und"), 350901502)]),
  ((u! "Cans"), [((u! "cr"), 41464), ((u! "crj"), 7162), ((u! "crl"), 5277), ((u! "iu"), 31664), ((u! "nsk"), 1169), ((u! "und"), 0)]),
  ((u! "Cher"), [((u! "chr"), 25613), ((u! "und"), 0)]),
  ((u! "Chrs"), [((u! "und"), 0), ((u! "xco"), 0)]),
  ((u! "Copt"), [((u! "cop"), 0), ((u! "und"), 0)]),
  ((u! "Cprt"), [((u! "grc"), 0), ((u! "und"), 0)]),
  ((u! "Cyrl"), [((u! "ab"), 91953), ((u! "abq"), 0), ((u! "ady"), 444583), ((u! "alt"), 19841), ((u! "atv"), 0), ((u! "av"), 552716), ((u! "ba"), 1842386), ((u! "bdk"), 0), ((u! "be"), 10064517), ((u! "bg"), 7878315), ((u! "bua"), 311788), ((u! "ce"), 935365), ((u! "chm"), 524371), ((u! "cv"), 1842386), ((u! "dar"), 368477), ((u! "ddo"), 0), ((u! "dng"), 0), ((u! "eve"), 0), ((u! "evn"), 0), ((u! "gin"), 0), ((u! "huz"), 0), ((u! "inh"), 226755), ((u! "jdt"), 0), ((u! "kap"), 0), ((u! "kbd"), 1070873), ((u! "kca"), 0), ((u! "khv"), 0), ((u! "kjh"), 0), ((u! "kjj"), 0), ((u! "kk"), 13637392), ((u! "kmr"), 0), ((u! "koi"), 63775), ((u! "kpv"), 0), ((u! "krc"), 240927), ((u! "kum"), 283444), ((u! "ky"), 3338267), ((u! "lbe"), 110543), ((u! "lez"), 255100), ((u! "mdf"), 297616), ((u! "mk"), 1608565), ((u! "mn"), 6572846), ((u! "mns"), 0), ((u! "mrj"), 29762), ((u! "myv"), 439338), ((u! "niv"), 0), ((u! "nog"), 0), ((u! "omk"), 0), ((u! "os"), 616987), ((u! "pnt"), 392463), ((u! "ru"), 195630064), ((u! "rue"), 527075), ((u! "sah"), 453510), ((u! "sgh"), 0), ((u! "sjd"), 0), ((u! "sva"), 0), ((u! "tab"), 0), ((u! "tg"), 9644223), ((u! "tt"), 1984108), ((u! "tyv"), 184239), ((u! "udi"), 0), ((u! "udm"), 538544), ((u! "ug"), 8052967), ((u! "uk"), 29273587), ((u! "und"), 195630064), ((u! "wbl"), 0), ((u! "xal"), 0), ((u! "yai"), 0), ((u! "ykg"), 0), ((u! "yux"), 0)]),
  ((u! "Cyrs"), [((u! "cu"), 0), ((u! "orv"), 0), ((u! "und"), 0), ((u! "zle-ono"), 0)]),
  ((u! "Deva"), [((u! "awa"), 25862924), ((u! "bfy"), 654424), ((u! "bfz"), 0), ((u! "bgc"), 15913080), ((u! "bhd"), 0), ((u! "bho"), 32934797), ((u! "bns"), 0), ((u! "bpx"), 0), ((u! "bra"), 54370), ((u! "brx"), 1856526), ((u! "cdh"), 0), ((u! "cdj"), 0), ((u! "doi"), 2652180), ((u! "dty"), 758198), ((u! "gbk"), 0), ((u! "gbm"), 3580443), ((u! "hi"), 546693674), ((u! "inc-ogu"), 0), ((u! "inc-ohi"), 0), ((u! "inc-pra"), 0), ((u! "inc-tak"), 0), ((u! "inc-vra"), 0), ((u! "kfs"), 0), ((u! "kfx"), 0), ((u! "kok"), 4906533), ((u! "ks"), 5723031), ((u! "mai"), 19249149), ((u! "mjl"), 0), ((u! "mr"), 92826300), ((u! "mtr"), 1286307), ((u! "mwr"), 15913080), ((u! "ne"), 20903374), ((u! "new"), 1000821), ((u! "omr"), 0), ((u! "pgd"), 0), ((u! "pgg"), 0), ((u! "pi"), 0), ((u! "pka"), 0), ((u! "pmh"), 0), ((u! "psu"), 0), ((u! "sa"), 15913), ((u! "saz"), 384566), ((u! "und"), 0), ((u! "unr"), 1252287), ((u! "xnr"), 2121744), ((u! "ybi"), 0)]),
  ((u! "Dogr"), [((u! "doi"), 2652180), ((u! "und"), 2652180)]),
  ((u! "Ethi"), [((u! "am"), 35728475), ((u! "byn"), 79056), ((u! "dlk"), 0), ((u! "gez"), 0), ((u! "har"), 0), ((u! "sem-cha"), 0), ((u! "ti"), 10145911), ((u! "tig"), 1094616), ((u! "und"), 0)]),
  ((u! "Geok"), [((u! "ka"), 3543646), ((u! "und"), 3543646)]),
  ((u! "Geor"), [((u! "ab"), 91953), ((u! "bbl"), 0), ((u! "ka"), 3543646), ((u! "lzz"), 22965), ((u! "oge"), 0), ((u! "os"), 616987), ((u! "sva"), 0), ((u! "udi"), 0), ((u! "und"), 0), ((u! "xmf"), 439670)]),
  ((u! "Glag"), [((u! "cu"), 0), ((u! "und"), 0), ((u! "zle-ono"), 0)]),
  ((u! "Goth"), [((u! "got"), 0), ((u! "und"), 0)]),
  ((u! "Gran"), [((u! "sa"), 15913), ((u! "und"), 15913)]),
  ((u! "Grek"), [((u! "cpg"), 0), ((u! "el"), 12384863), ((u! "grc"), 0), ((u! "ine-pae"), 0), ((u! "oos"), 0), ((u! "pnt"), 392463), ((u! "txh"), 0), ((u! "und"), 12384863), ((u! "xbc"), 0), ((u! "xmk"), 0), ((u! "xpg"), 0)]),
  ((u! "Gujr"), [((u! "ae"), 0), ((u! "gu"), 59679028), ((u! "kfr"), 994568), ((u! "sa"), 15913), ((u! "und"), 59679028), ((u! "vgr"), 0)]),
  ((u! "Guru"), [((u! "inc-opa"), 0), ((u! "pa"), 201120217), ((u! "sa"), 15913), ((u! "und"), 0)]),
  ((u! "Hani"), [((u! "dng"), 0), ((u! "und"), 0)]),
  ((u! "Hatr"), [((u! "arc"), 0), ((u! "und"), 0)]),
  ((u! "Hebr"), [((u! "ar"), 350901502), ((u! "jdt"), 0), ((u! "ka"), 3543646), ((u! "und"), 350901502), ((u! "yi"), 1046399)]),
  ((u! "Ital"), [((u! "ett"), 0), ((u! "itc-ola"), 0), ((u! "nrp"), 0), ((u! "osc"), 0), ((u! "spx"), 0), ((u! "und"), 0), ((u! "xcc"), 0), ((u! "xfa"), 0), ((u! "xle"), 0), ((u! "xlp"), 0), ((u! "xrr"), 0), ((u! "xum"), 0), ((u! "xve"), 0)]),
  ((u! "Java"), [((u! "jv"), 91180665), ((u! "kaw"), 0), ((u! "sa"), 15913), ((u! "und"), 91180665)]),
  ((u! "Kali"), [((u! "kyu"), 0), ((u! "und"), 0)]),
  ((u! "Kham"), [((u! "und"), 0)]),
  ((u! "Khar"), [((u! "inc-ash"), 0), ((u! "kho"), 0), ((u! "pgd"), 0), ((u! "pra-niy"), 0), ((u! "sa"), 15913), ((u! "und"), 0), ((u! "xtq"), 0)]),
  ((u! "Khmr"), [((u! "km"), 15065030), ((u! "pi"), 0), ((u! "sa"), 15913), ((u! "und"), 15065030)]),
  ((u! "Knda"), [((u! "dra-mkn"), 0), ((u! "dra-okn"), 0), ((u! "inc-pra"), 0), ((u! "kn"), 49065330), ((u! "kok"), 4906533), ((u! "sa"), 15913), ((u! "tcy"), 1989135), ((u! "und"), 49065330)]),
  ((u! "Kore"), [((u! "ko"), 78187423), ((u! "und"), 78187423)]),
  ((u! "Kthi"), [((u! "awa"), 25862924), ((u! "bho"), 32934797), ((u! "hi"), 546693674), ((u! "mai"), 19249149), ((u! "und"), 546693674)]),
  ((u! "Lana"), [((u! "pi"), 0), ((u! "sa"), 15913), ((u! "und"), 15913)]),
  ((u! "Laoo"), [((u! "lo"), 5138706), ((u! "pi"), 0), ((u! "sa"), 15913), ((u! "und"), 5138706)]),
  ((u! "Latn"), [((u! "und"), 0)]),
  ((u! "Lepc"), [((u! "lep"), 79743), ((u! "und"), 79743)]),
  ((u! "Limb"), [((u! "lif"), 368085), ((u! "und"), 0)]),
  ((u! "Linb"), [((u! "gmy"), 0), ((u! "und"), 0)]),
  ((u! "Lyci"), [((u! "und"), 0), ((u! "xlc"), 0)]),
  ((u! "Lydi"), [((u! "und"), 0), ((u! "xld"), 0)]),
  ((u! "Mahj"), [((u! "mwr"), 15913080), ((u! "und"), 15913080)]),
  ((u! "Mand"), [((u! "arc"), 0), ((u! "und"), 0)]),
  ((u! "Mani"), [((u! "pal"), 0), ((u! "sog"), 0), ((u! "und"), 0), ((u! "xbc"), 0), ((u! "xpr"), 0)]),
  ((u! "Merc"), [((u! "und"), 0), ((u! "xmr"), 0)]),
  ((u! "Mero"), [((u! "und"), 0), ((u! "xmr"), 0)]),
  ((u! "Mlym"), [((u! "kok"), 4906533), ((u! "ml"), 43280500), ((u! "sa"), 15913), ((u! "und"), 43280500)]),
  ((u! "Modi"), [((u! "mr"), 92826300), ((u! "omr"), 0), ((u! "sa"), 15913), ((u! "und"), 0)]),
  ((u! "Mong"), [((u! "bua"), 311788), ((u! "cmg"), 0), ((u! "mn"), 6572846), ((u! "mnc"), 0), ((u! "und"), 6572846), ((u! "xng"), 0), ((u! "xwo"), 0)]),
  ((u! "Mymr"), [((u! "ksw"), 0), ((u! "my"), 36559231), ((u! "pi"), 0), ((u! "rhg"), 0), ((u! "sa"), 15913), ((u! "shn"), 3687984), ((u! "und"), 36559231)]),
  ((u! "Narb"), [((u! "sem-dad"), 0), ((u! "sem-dum"), 0), ((u! "sem-has"), 0), ((u! "sem-his"), 0), ((u! "sem-saf"), 0), ((u! "sem-tay"), 0), ((u! "sem-tha"), 0), ((u! "und"), 0)]),
  ((u! "Nbat"), [((u! "arc"), 0), ((u! "und"), 0)]),
  ((u! "Newa"), [((u! "bn"), 267280377), ((u! "hi"), 546693674), ((u! "mai"), 19249149), ((u! "ne"), 20903374), ((u! "new"), 1000821), ((u! "sa"), 15913), ((u! "und"), 0)]),
  ((u! "Ogam"), [((u! "pgl"), 0), ((u! "und"), 0)]),
  ((u! "Olck"), [((u! "sat"), 7293495), ((u! "und"), 0)]),
  ((u! "Orkh"), [((u! "otk"), 0), ((u! "und"), 0)]),
  ((u! "Orya"), [((u! "or"), 42434880), ((u! "sa"), 15913), ((u! "spv"), 0), ((u! "und"), 42434880)]),
  ((u! "Palm"), [((u! "arc"), 0), ((u! "und"), 0)]),
  ((u! "Perm"), [((u! "koi"), 63775), ((u! "und"), 63775)]),
  ((u! "Phag"), [((u! "und"), 0), ((u! "xng"), 0)]),
  ((u! "Phli"), [((u! "pal"), 0), ((u! "und"), 0)]),
  ((u! "Phlv"), [((u! "pal"), 0), ((u! "und"), 0), ((u! "xco"), 0)]),
  ((u! "Phnx"), [((u! "arc"), 0), ((u! "obm"), 0), ((u! "phn"), 0), ((u! "sem-amm"), 0), ((u! "und"), 0), ((u! "xdm"), 0), ((u! "xpu"), 0)]),
  ((u! "Prti"), [((u! "und"), 0), ((u! "xpr"), 0)]),
  ((u! "Rohg"), [((u! "rhg"), 0), ((u! "und"), 0)]),
  ((u! "Runr"), [((u! "ang"), 0), ((u! "gmq-pro"), 0), ((u! "got"), 0), ((u! "non"), 0), ((u! "und"), 0)]),
  ((u! "Samr"), [((u! "arc"), 0), ((u! "sam"), 0), ((u! "und"), 0)]),
  ((u! "Sarb"), [((u! "inm"), 0), ((u! "sem-srb"), 0), ((u! "und"), 0), ((u! "xha"), 0), ((u! "xhd"), 0), ((u! "xqt"), 0), ((u! "xsa"), 0)]),
  ((u! "Saur"), [((u! "sa"), 15913), ((u! "saz"), 384566), ((u! "und"), 384566)]),
  ((u! "Shrd"), [((u! "ks"), 5723031), ((u! "sa"), 15913), ((u! "und"), 0)]),
  ((u! "Sidd"), [((u! "sa"), 15913), ((u! "und"), 15913)]),
  ((u! "Sind"), [((u! "und"), 0)]),
  ((u! "Sinh"), [((u! "pi"), 0), ((u! "sa"), 15913), ((u! "si"), 15564656), ((u! "und"), 15564656)]),
  ((u! "Sogd"), [((u! "sog"), 0), ((u! "und"), 0), ((u! "xco"), 0)]),
  ((u! "Sogo"), [((u! "sog"), 0), ((u! "und"), 0)]),
  ((u! "Soyo"), [((u! "mn"), 6572846), ((u! "und"), 6572846)]),
  ((u! "Sund"), [((u! "su"), 32043120), ((u! "und"), 32043120)]),
  ((u! "Sylo"), [((u! "syl"), 8467932), ((u! "und"), 8467932)]),
  ((u! "Takr"), [((u! "cdh"), 0), ((u! "doi"), 2652180), ((u! "gbk"), 0), ((u! "kfs"), 0), ((u! "mjl"), 0), ((u! "pgg"), 0), ((u! "und"), 2652180), ((u! "xnr"), 2121744)]),
  ((u! "Tale"), [((u! "tdd"), 264864), ((u! "und"), 0)]),
  ((u! "Talu"), [((u! "khb"), 264864), ((u! "und"), 0)]),
  ((u! "Taml"), [((u! "sa"), 15913), ((u! "saz"), 384566), ((u! "ta"), 83327103), ((u! "und"), 83327103)]),
  ((u! "Tavt"), [((u! "und"), 0)]),
  ((u! "Telu"), [((u! "sa"), 15913), ((u! "te"), 95478480), ((u! "und"), 95478480)]),
  ((u! "Tfng"), [((u! "rif"), 3692411), ((u! "shi"), 6187736), ((u! "tzm"), 3485047), ((u! "und"), 0), ((u! "zgh"), 7823574)]),
  ((u! "Thaa"), [((u! "dv"), 372368), ((u! "und"), 372368)]),
  ((u! "Thai"), [((u! "pi"), 0), ((u! "sa"), 15913), ((u! "th"), 55181920), ((u! "und"), 55181920)]),
  ((u! "Tibt"), [((u! "bo"), 3006697), ((u! "dz"), 370341), ((u! "lbj"), 0), ((u! "sa"), 15913), ((u! "sip"), 0), ((u! "und"), 3006697)]),
  ((u! "Tirh"), [((u! "mai"), 19249149), ((u! "sa"), 15913), ((u! "und"), 0)]),
  ((u! "Ugar"), [((u! "uga"), 0), ((u! "und"), 0)]),
  ((u! "Vaii"), [((u! "und"), 0), ((u! "vai"), 131906)]),
  ((u! "Xpeo"), [((u! "peo"), 0), ((u! "und"), 0)]),
  ((u! "Yiii"), [((u! "ii"), 8364120), ((u! "und"), 8364120)]),
  ((u! "Zanb"), [((u! "mn"), 6572846), ((u! "und"), 6572846)])]

end Verif.Yaml
