import Verif.Model.Dispatch

/-!
# PostOptions.py: defaults applied to the result when `nativize` is set
-/

namespace Verif
open PostProcess

/-- PostOptions.py:10-114 `ApplyScriptDefaults(Strng, Source, Target, PostOptions)`.  The list of
option names and the call by name (with `Target` as second argument unless the option's name
contains it) are written as direct calls. -/
def applyScriptDefaults (Source Target : PyStr) (postoptions : List PyStr) : Gen Unit :=
  branch (pyEq Target (u! "Telugu"))
    (do NasalToAnusvara Target; MToAnusvara Target; TeluguRemoveNukta; TeluguRemoveAeAo) <|
  branch (pyEq Target (u! "Kannada"))
    (do NasalToAnusvara Target; MToAnusvara Target) <|
  branch (pyEq Target (u! "Sinhala")) SinhalaChandrbinduAnusvara <|
  branch (pyEq Target (u! "Khojki")) KhojkiRRI <|
  branch (pyEq Target (u! "Nandinagari")) (NasalToAnusvara Target) <|
  branch (pyEq Target (u! "Hebrew")) (do HebrewVetVav; HebrewnonFinalShort) <|
  branch (pyEq Target (u! "Malayalam"))
    (do MalayalamAnusvaraNasal; MToAnusvara Target; MalayalamremoveHistorical) <|
  branch (pyEq Target (u! "Tamil"))
    (do TamilNaToNNa; AnusvaraToNasal Target; TamilpredictDentaNa) <|
  branch (pyEq Target (u! "Bengali"))
    (branch (pyIn (u! "BengaliRaBa") postoptions)
      (do YaToYYa Target; AnusvaraToNasal Target; BengaliConjunctVB)
      (do AnusvaraToNasal Target; VaToBa Target; YaToYYa Target; BengaliConjunctVB)) <|
  branch (pyEq Target (u! "MeeteiMayek")) MeeteiMayekremoveHistorical <|
  branch (pyEq Target (u! "Limbu")) LimburemoveHistorical <|
  branch (pyEq Target (u! "Assamese")) (do YaToYYa Target; AnusvaraToNasal Target) <|
  branch (pyEq Target (u! "Oriya")) (do AnusvaraToNasal Target; OriyaVa; YaToYYa Target) <|
  branch (pyEq Target (u! "Chakma")) (YaToYYa Target) <|
  branch (pyEq Target (u! "Gurmukhi"))
    (do GurmukhiCandrabindu; GurmukhiTippiBindu; GurmukhiTippiGemination) <|
  branch (pyEq Target (u! "Saurashtra")) SaurashtraHaru <|
  branch (pyEq Target (u! "Ahom")) AhomClosed <|
  branch (pyEq Target (u! "Tibetan")) (do TibetanRemoveVirama; TibetanRemoveBa) <|
  branch (pyEq Target (u! "Thaana")) ThaanaRemoveHistorical <|
  branch (pyEq Target (u! "Avestan")) AvestanConventions <|
  branch (pyEq Target (u! "Sundanese")) SundaneseRemoveHistoric <|
  branch (pyEq Target (u! "Multani")) MultaniAbjad <|
  branch (pyEq Target (u! "Modi")) ModiRemoveLong <|
  branch (pyEq Target (u! "WarangCiti")) WarangCitiModernOrthogaphy <|
  branch (pyEq Target (u! "Latn"))
    (branch (pyEq Source (u! "Arab")) arabizeLatn <|
     branch (pyEq Source (u! "Arab-Ur") || pyEq Source (u! "Arab-Pa") || pyEq Source (u! "Arab-Fa"))
       urduizeLatn <|
     branch (pyEq Source (u! "Syrn")) syricizeLatn <|
     branch (pyEq Source (u! "Syrj") || pyEq Source (u! "Hebr")) hebraizeLatn <|
     pure ()) <|
  branch (pyEq Target (u! "Arab")) ArabRemoveAdditions <|
  pure ()

end Verif
