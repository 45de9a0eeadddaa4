import Verif.Model.Sec

/-!
# Letter tables as written in /repo/aksharamukha/ScriptMap

Generated by tools/gentables.py.
-/

namespace Verif.Base

/-- ScriptMap/EastIndic/BatakKaro.py -/
def BatakKaro : Tbl where
  VowelMap := us!["ᯀ", "ᯀʽ", "ᯤ", "ᯤʽ", "ᯥ", "ᯥʽ", "ᯒᯬʽ", "ᯒᯬʽ", "ᯞᯬʽ", "ᯞᯬʽ", "ᯤʽ", "ᯀᯤʽ", "ᯥʽ", "ᯀᯥʽ"]
  SouthVowelMap := us!["ᯤʽ", "ᯥʽ"]
  ModernVowelMap := us!["ᯤʽ", "ᯀʽ"]
  SinhalaVowelMap := us!["ᯤʽ"]
  VowelSignMap := us!["ʽ", "ᯫ", "ᯫʽ", "ᯬ", "ᯬʽ", "ᯒᯬʽ", "ᯒᯬʽ", "ᯞᯬʽ", "ᯞᯬʽ", "ᯩʽ", "ᯤʽ", "ᯭʽ", "ᯥʽ"]
  SouthVowelSignMap := us!["ᯩ", "ᯭ"]
  ModernVowelSignMap := us!["ᯧ", "ʽ"]
  SinhalaVowelSignMap := us!["ᯩʽ"]
  ViramaMap := us!["᯳"]
  AyogavahaMap := us!["ᯰʽ", "ᯰ", "ᯱ"]
  NuktaMap := us!["ʽʽʽʽ"]
  ConsonantMap := us!["ᯂ", "ᯂʽ", "ᯎ", "ᯎʽ", "ᯝ", "ᯡ", "ᯡʽ", "ᯐ", "ᯐʽ", "ᯉʽ", "ᯗʽ", "ᯗʽ", "ᯑʽ", "ᯑʽ", "ᯉʽ", "ᯗ", "ᯗʽ", "ᯑ", "ᯑʽ", "ᯉ", "ᯇ", "ᯇʽ", "ᯆ", "ᯆʽ", "ᯔ", "ᯛ", "ᯒ", "ᯞ", "ᯋ", "ᯘʽ", "ᯘʽ", "ᯘ", "ᯀʽ"]
  SouthConsonantMap := us!["ᯞʽ", "ᯞʽ", "ᯒʽ", "ᯉʽ"]
  NuktaConsonantMap := us!["ᯂʽ", "ᯂʽ", "ᯎʽ", "ᯐʽ", "ᯑʽ", "ᯑʽ", "ᯇʽ", "ᯛʽ"]
  SinhalaConsonantMap := us!["ᯰᯎʽ", "ᯰᯐʽ", "ᯢʽ", "ᯢ", "ᯣ"]
  SignMap := us!["'", ".", "."]
  NumeralMap := us!["0", "1", "2", "3", "4", "5", "6", "7", "8", "9"]
  Aytham := us!["ᯱʼ"]
  OmMap := us!["ᯥᯔ᯳ʽ"]

/-- ScriptMap/EastIndic/BatakManda.py -/
def BatakManda : Tbl where
  VowelMap := us!["ᯀ", "ᯀʽ", "ᯤ", "ᯤʽ", "ᯥ", "ᯥʽ", "ᯒᯮʽ", "ᯒᯮʽ", "ᯞᯮʽ", "ᯞᯮʽ", "ᯤʽ", "ᯀᯤʽ", "ᯥʽ", "ᯀᯥʽ"]
  SouthVowelMap := us!["ᯤʽ", "ᯥʽ"]
  ModernVowelMap := us!["ᯤʽ", "ᯀʽ"]
  SinhalaVowelMap := us!["ᯤʽ"]
  VowelSignMap := us!["ʽʽ", "ᯪ", "ᯪʽ", "ᯮ", "ᯮʽ", "ᯒᯮʽ", "ᯒᯮʽ", "ᯞᯮʽ", "ᯞᯮʽ", "ᯩʽ", "ᯤʽ", "ᯬʽ", "ᯥʽ"]
  SouthVowelSignMap := us!["ᯩ", "ᯬ"]
  ModernVowelSignMap := us!["ᯩʽ", "ʽʽ"]
  SinhalaVowelSignMap := us!["ᯩʽ"]
  ViramaMap := us!["᯲"]
  AyogavahaMap := us!["ᯰʽ", "ᯰ", "ᯄ᯲ʽ"]
  NuktaMap := us!["ʽʽʽʽ"]
  ConsonantMap := us!["ᯄ᯦", "ᯄ᯦ʽ", "ᯎ", "ᯎʽ", "ᯝ", "ᯚ᯦", "ᯚ᯦ʽ", "ᯐ", "ᯐʽ", "ᯠ", "ᯖʽ", "ᯖʽ", "ᯑʽ", "ᯑʽ", "ᯊʽ", "ᯖ", "ᯖʽ", "ᯑ", "ᯑʽ", "ᯊ", "ᯇ", "ᯇʽ", "ᯅ", "ᯅʽ", "ᯔ", "ᯛ", "ᯒ", "ᯞ", "ᯍ", "ᯚʽ", "ᯚʽ", "ᯚ", "ᯄ"]
  SouthConsonantMap := us!["ᯞʽ", "ᯞʽ", "ᯒʽ", "ᯊʽ"]
  NuktaConsonantMap := us!["ᯄ᯦ʽ", "ᯄ᯦ʽ", "ᯎʽ", "ᯐʽ", "ᯑʽ", "ᯑʽ", "ᯇʽ", "ᯛʽ"]
  SinhalaConsonantMap := us!["ᯰᯎʽ", "ᯰᯐʽ", "ᯰᯑʽ", "ᯰᯑʽ", "ᯰᯅʽ"]
  SignMap := us!["'", ".", "."]
  NumeralMap := us!["0", "1", "2", "3", "4", "5", "6", "7", "8", "9"]
  Aytham := us!["ᯄ᯲ʽʼ"]
  OmMap := us!["ᯥᯔ᯲ʽ"]

/-- ScriptMap/EastIndic/BatakPakpak.py -/
def BatakPakpak : Tbl where
  VowelMap := us!["ᯀ", "ᯀʽ", "ᯤ", "ᯤʽ", "ᯥ", "ᯥʽ", "ᯒᯮʽ", "ᯒᯮʽ", "ᯞᯮʽ", "ᯞᯮʽ", "ᯤʽ", "ᯀᯤʽ", "ᯥʽ", "ᯀᯥʽ"]
  SouthVowelMap := us!["ᯤʽ", "ᯥʽ"]
  ModernVowelMap := us!["ᯤʽ", "ᯀʽ"]
  SinhalaVowelMap := us!["ᯤʽ"]
  VowelSignMap := us!["ʽʽ", "ᯪ", "ᯪʽ", "ᯮ", "ᯮʽ", "ᯒᯮʽ", "ᯒᯮʽ", "ᯞᯮʽ", "ᯞᯮʽ", "ᯨʽ", "ᯤʽ", "ᯬʽ", "ᯥʽ"]
  SouthVowelSignMap := us!["ᯨ", "ᯬ"]
  ModernVowelSignMap := us!["ᯧ", "ʽʽ"]
  SinhalaVowelSignMap := us!["ᯩʽ"]
  ViramaMap := us!["᯲"]
  AyogavahaMap := us!["ᯰʽ", "ᯰ", "ᯱ"]
  NuktaMap := us!["ʽʽʽʽ"]
  ConsonantMap := us!["ᯂ", "ᯂʽ", "ᯎ", "ᯎʽ", "ᯝ", "ᯘʽ", "ᯘʽ", "ᯐ", "ᯐʽ", "ᯉʽ", "ᯗʽ", "ᯗʽ", "ᯑʽ", "ᯑʽ", "ᯉʽ", "ᯗ", "ᯗʽ", "ᯑ", "ᯑʽ", "ᯉ", "ᯇ", "ᯇʽ", "ᯅ", "ᯅʽ", "ᯔ", "ᯛ", "ᯒ", "ᯞ", "ᯍ", "ᯘʽ", "ᯘʽ", "ᯘ", "ᯀʽ"]
  SouthConsonantMap := us!["ᯞʽ", "ᯞʽ", "ᯒʽ", "ᯉʽ"]
  NuktaConsonantMap := us!["ᯂʽ", "ᯂʽ", "ᯎʽ", "ᯐʽ", "ᯑʽ", "ᯑʽ", "ᯇʽ", "ᯛʽ"]
  SinhalaConsonantMap := us!["ᯰᯎʽ", "ᯰᯐʽ", "ᯰᯑʽ", "ᯰᯑʽ", "ᯰᯅʽ"]
  SignMap := us!["'", ".", "."]
  NumeralMap := us!["0", "1", "2", "3", "4", "5", "6", "7", "8", "9"]
  Aytham := us!["ᯱʼ"]
  OmMap := us!["ᯥᯔ᯲ʽ"]

/-- ScriptMap/EastIndic/BatakSima.py -/
def BatakSima : Tbl where
  VowelMap := us!["ᯁ", "ᯁʽ", "ᯤ", "ᯤʽ", "ᯥ", "ᯥʽ", "ᯓᯮʽ", "ᯓᯮʽ", "ᯟᯮʽ", "ᯟᯮʽ", "ᯤʽ", "ᯀᯤʽ", "ᯥʽ", "ᯀᯥʽ"]
  SouthVowelMap := us!["ᯤʽ", "ᯥʽ"]
  ModernVowelMap := us!["ᯤʽ", "ᯀʽ"]
  SinhalaVowelMap := us!["ᯤʽ"]
  VowelSignMap := us!["ʽʽ", "ᯫ", "ᯫʽ", "ᯮ", "ᯮʽ", "ᯓᯮʽ", "ᯓᯮʽ", "ᯟᯮʽ", "ᯟᯮʽ", "ᯩʽ", "ᯤʽ", "ᯬʽ", "ᯭ"]
  SouthVowelSignMap := us!["ᯩ", "ᯬ"]
  ModernVowelSignMap := us!["ᯩʽ", "ʽʽ"]
  SinhalaVowelSignMap := us!["ᯩʽ"]
  ViramaMap := us!["᯳"]
  AyogavahaMap := us!["ᯰʽ", "ᯰ", "ᯱ"]
  NuktaMap := us!["ʽʽʽʽ"]
  ConsonantMap := us!["ᯃ", "ᯃʽ", "ᯏ", "ᯏʽ", "ᯝ", "ᯙʽ", "ᯙʽ", "ᯐ", "ᯐʽ", "ᯠ", "ᯖʽ", "ᯖʽ", "ᯑʽ", "ᯑʽ", "ᯉʽ", "ᯖ", "ᯖʽ", "ᯑ", "ᯑʽ", "ᯉ", "ᯈ", "ᯈʽ", "ᯅ", "ᯅʽ", "ᯕ", "ᯜ", "ᯓ", "ᯟ", "ᯌ", "ᯙʽ", "ᯙʽ", "ᯙ", "ᯃʽ"]
  SouthConsonantMap := us!["ᯟʽ", "ᯟʽ", "ᯓʽ", "ᯉʽ"]
  NuktaConsonantMap := us!["ᯃʽ", "ᯃʽ", "ᯏʽ", "ᯐʽ", "ᯑʽ", "ᯑʽ", "ᯈʽ", "ᯜʽ"]
  SinhalaConsonantMap := us!["ᯰᯏʽ", "ᯰᯐʽ", "ᯰᯑʽ", "ᯰᯑʽ", "ᯰᯅʽ"]
  SignMap := us!["'", ".", "."]
  NumeralMap := us!["0", "1", "2", "3", "4", "5", "6", "7", "8", "9"]
  Aytham := us!["ᯱʼ"]
  OmMap := us!["ᯥᯕ᯳ʽ"]

/-- ScriptMap/EastIndic/BatakToba.py -/
def BatakToba : Tbl where
  VowelMap := us!["ᯀ", "ᯀʽ", "ᯤ", "ᯤʽ", "ᯥ", "ᯥʽ", "ᯒᯮʽ", "ᯒᯮʽ", "ᯞᯮʽ", "ᯞᯮʽ", "ᯤʽ", "ᯀᯤʽ", "ᯥʽ", "ᯀᯥʽ"]
  SouthVowelMap := us!["ᯤʽ", "ᯥʽ"]
  ModernVowelMap := us!["ᯤʽ", "ᯀʽ"]
  SinhalaVowelMap := us!["ᯤʽ"]
  VowelSignMap := us!["ʽʽ", "ᯪ", "ᯪʽ", "ᯮ", "ᯮʽ", "ᯒᯮʽ", "ᯒᯮʽ", "ᯞᯮʽ", "ᯞᯮʽ", "ᯩʽ", "ᯤʽ", "ᯬʽ", "ᯥʽ"]
  SouthVowelSignMap := us!["ᯩ", "ᯬ"]
  ModernVowelSignMap := us!["ᯩʽ", "ʽʽ"]
  SinhalaVowelSignMap := us!["ᯩʽ"]
  ViramaMap := us!["᯲"]
  AyogavahaMap := us!["ᯰʽ", "ᯰ", "ᯂ᯲ʽ"]
  NuktaMap := us!["ʽʽʽʽ"]
  ConsonantMap := us!["ᯂ", "ᯂʽ", "ᯎ", "ᯎʽ", "ᯝ", "ᯘʽ", "ᯘʽ", "ᯐ", "ᯐʽ", "ᯠ", "ᯗʽ", "ᯗʽ", "ᯑʽ", "ᯑʽ", "ᯉʽ", "ᯗ", "ᯗʽ", "ᯑ", "ᯑʽ", "ᯉ", "ᯇ", "ᯇʽ", "ᯅ", "ᯅʽ", "ᯔ", "ᯛ", "ᯒ", "ᯞ", "ᯍ", "ᯘʽ", "ᯘʽ", "ᯘ", "ᯂʽ"]
  SouthConsonantMap := us!["ᯞʽ", "ᯞʽ", "ᯒʽ", "ᯉʽ"]
  NuktaConsonantMap := us!["ᯂʽ", "ᯂʽ", "ᯎʽ", "ᯐʽ", "ᯑʽ", "ᯑʽ", "ᯇʽ", "ᯛʽ"]
  SinhalaConsonantMap := us!["ᯰᯎʽ", "ᯰᯐʽ", "ᯰᯑʽ", "ᯰᯑʽ", "ᯰᯅʽ"]
  SignMap := us!["'", ".", "."]
  NumeralMap := us!["0", "1", "2", "3", "4", "5", "6", "7", "8", "9"]
  Aytham := us!["ᯂ᯲ʽʼ"]
  OmMap := us!["ᯥᯔ᯲ʽ"]

/-- ScriptMap/EastIndic/Buginese.py -/
def Buginese : Tbl where
  VowelMap := us!["ᨕ", "ᨕʽ", "ᨕᨗ", "ᨕᨗʽ", "ᨕᨘ", "ᨕᨘʽ", "ᨑᨘʽ", "ᨑᨘʽ", "ᨒᨘʽ", "ᨒᨘʽ", "ᨕᨙʽ", "ᨕᨕᨗʽ", "ᨕᨚʽ", "ᨕᨕᨘʽ"]
  SouthVowelMap := us!["ᨕᨙ", "ᨕᨚ"]
  ModernVowelMap := us!["ᨕᨛ", "ᨕʽ"]
  SinhalaVowelMap := us!["ᨕᨛʽ"]
  VowelSignMap := us!["ʽʽ", "ᨗ", "ᨗʽ", "ᨘ", "ᨘʽ", "ᨑᨘʽ", "ᨑᨘʽ", "ᨒᨘʽ", "ᨒᨘʽ", "ᨙʽ", "ᨕᨗʽ", "ᨚʽ", "ᨕᨘʽ"]
  SouthVowelSignMap := us!["ᨙ", "ᨚ"]
  ModernVowelSignMap := us!["ᨛ", "ʽʽʽ"]
  SinhalaVowelSignMap := us!["ᨛʽ"]
  ViramaMap := us!["ʾ"]
  AyogavahaMap := us!["ᨆʽ", "ᨆʽ", "ᨖʽ"]
  NuktaMap := us!["ʽʽʽʽ"]
  ConsonantMap := us!["ᨀ", "ᨀʽ", "ᨁ", "ᨁʽ", "ᨂ", "ᨌ", "ᨌʽ", "ᨍ", "ᨍʽ", "ᨎ", "ᨈʽ", "ᨈʽ", "ᨉʽ", "ᨉʽ", "ᨊʽ", "ᨈ", "ᨈʽ", "ᨉ", "ᨉʽ", "ᨊ", "ᨄ", "ᨄʽ", "ᨅ", "ᨅʽ", "ᨆ", "ᨐ", "ᨑ", "ᨒ", "ᨓ", "ᨔʽ", "ᨔʽ", "ᨔ", "ᨖ"]
  SouthConsonantMap := us!["ᨒʽ", "ᨒʽ", "ᨑʽ", "ᨊʽ"]
  NuktaConsonantMap := us!["ᨀʽ", "ᨀʽ", "ᨁʽ", "ᨍʽ", "ᨉʽ", "ᨉʽ", "ᨄʽ", "ᨐʽ"]
  SinhalaConsonantMap := us!["ᨂᨁʽ", "ᨎᨍʽ", "ᨊᨉʽ", "ᨊᨉʽ", "ᨆᨅʽ"]
  SignMap := us!["ʽʽ", "᨞", "᨞᨞"]
  NumeralMap := us!["0", "1", "2", "3", "4", "5", "6", "7", "8", "9"]
  Aytham := us!["ᨖʽʼ"]
  OmMap := us!["ᨕᨚᨆʽ"]

/-- ScriptMap/EastIndic/Buhid.py -/
def Buhid : Tbl where
  VowelMap := us!["ᝀ", "ᝀʽ", "ᝁ", "ᝁʽ", "ᝂ", "ᝂʽ", "ᝎᝓʽ", "ᝎᝓʽ", "ᝎᝓʽ", "ᝎᝓʽ", "ᝁʽ", "ᝀᝁʽ", "ᝂʽ", "ᝀᝂʽ"]
  SouthVowelMap := us!["ᝁʽ", "ᝂʽ"]
  ModernVowelMap := us!["ᝁʽ", "ᝀʽ"]
  SinhalaVowelMap := us!["ᝁʽ"]
  VowelSignMap := us!["ʽʽ", "ᝒ", "ᝒʽ", "ᝓ", "ᝓʽ", "ᝎᝓʽ", "ᝎᝓʽ", "ᝎᝓʽ", "ᝎᝓʽ", "ᝒʽ", "ᝁʽ", "ᝓʽ", "ᝂʽ"]
  SouthVowelSignMap := us!["ᝒʽ", "ᝓʽ"]
  ModernVowelSignMap := us!["ᝒʽ", "ʽʽ"]
  SinhalaVowelSignMap := us!["ᝒʽ"]
  ViramaMap := us!["ʽʽ"]
  AyogavahaMap := us!["ᝋʽ", "ᝋʽ", "ᝃʽ"]
  NuktaMap := us!["ʽʽʽʽ"]
  ConsonantMap := us!["ᝃ", "ᝃʽ", "ᝄ", "ᝄʽ", "ᝅ", "ᝐʽ", "ᝐʽ", "ᝇʽ", "ᝇʽ", "ᝈʽ", "ᝆʽ", "ᝆʽ", "ᝇʽ", "ᝇʽ", "ᝈʽ", "ᝆ", "ᝆʽ", "ᝇ", "ᝇʽ", "ᝈ", "ᝉ", "ᝉʽ", "ᝊ", "ᝊʽ", "ᝋ", "ᝌ", "ᝍ", "ᝎ", "ᝏ", "ᝐʽ", "ᝐʽ", "ᝐ", "ᝃʽ"]
  SouthConsonantMap := us!["ᝎʽ", "ᝎʽ", "ᝎʽ", "ᝈʽ"]
  NuktaConsonantMap := us!["ᝃʽ", "ᝃʽ", "ᝄʽ", "ᝇʽ", "ᝇʽ", "ᝇʽ", "ᝉʽ", "ᝌʽ"]
  SinhalaConsonantMap := us!["ᝅᝄʽ", "ᝈᝇʽ", "ᝈᝇʽ", "ᝈᝇʽ", "ᝋᝊʽ"]
  SignMap := us!["ʽʽ", "᜵", "᜶"]
  NumeralMap := us!["0", "1", "2", "3", "4", "5", "6", "7", "8", "9"]
  Aytham := us!["ᝃʽʽ"]
  OmMap := us!["ᝂᝋʽ"]

/-- ScriptMap/EastIndic/Burmese.py -/
def Burmese : Tbl where
  VowelMap := us!["အ", "အာ", "ဣ", "ဤ", "ဥ", "ဦ", "ၒ", "ၓ", "ၔ", "ၕ", "ဧ", "အဲ", "ဩ", "ဪ"]
  SouthVowelMap := us!["ဧʽ", "ဩʽ"]
  ModernVowelMap := us!["ဧʽ", "အာʽ"]
  SinhalaVowelMap := us!["ဧʽ"]
  VowelSignMap := us!["ာ", "ိ", "ီ", "ု", "ူ", "ၖ", "ၗ", "ၘ", "ၙ", "ေ", "ဲ", "ော", "ော်"]
  SouthVowelSignMap := us!["ေʽ", "ောʽ"]
  ModernVowelSignMap := us!["ေʽ", "ာʽ"]
  SinhalaVowelSignMap := us!["ေʽ"]
  ViramaMap := us!["်"]
  AyogavahaMap := us!["ံʽ", "ံ", "း"]
  NuktaMap := us!["ʽʽʽʽ"]
  ConsonantMap := us!["က", "ခ", "ဂ", "ဃ", "င", "စ", "ဆ", "ဇ", "ဈ", "ဉ", "ဋ", "ဌ", "ဍ", "ဎ", "ဏ", "တ", "ထ", "ဒ", "ဓ", "န", "ပ", "ဖ", "ဗ", "ဘ", "မ", "ယ", "ရ", "လ", "ဝ", "ၐ", "ၑ", "သ", "ဟ"]
  SouthConsonantMap := us!["ဠ", "ဠʽ", "ရʽ", "နʽ"]
  NuktaConsonantMap := us!["ကʽ", "ခʽ", "ဂʽ", "ဇʽ", "ဍʽ", "ဎʽ", "ဖʽ", "ယʽ"]
  SinhalaConsonantMap := us!["ံဂʽ", "ံဇʽ", "ံဍʽ", "ံဒʽ", "ံဗʽ"]
  SignMap := us!["'", "၊", "။"]
  NumeralMap := us!["၀", "၁", "၂", "၃", "၄", "၅", "၆", "၇", "၈", "၉"]
  Aytham := us!["းʽ"]
  OmMap := us!["ဥုံ"]

/-- ScriptMap/EastIndic/Cham.py -/
def Cham : Tbl where
  VowelMap := us!["ꨀ", "ꨀꨩ", "ꨁ", "ꨁꨩ", "ꨂ", "ꨂꨩ", "ꨣꨮ", "ꨣꨮꨩ", "ꨤꨮ", "ꨤꨮꨩ", "ꨃ", "ꨄ", "ꨅ", "ꨀꨯꨱ"]
  SouthVowelMap := us!["ꨃʽ", "ꨅʽ"]
  ModernVowelMap := us!["ꨃʽ", "ꨀꨩʽ"]
  SinhalaVowelMap := us!["ꨃʽ"]
  VowelSignMap := us!["ꨩ", "ꨪ", "ꨫ", "ꨭ", "ꨭꨩ", "ʾꨣꨮ", "ʾꨣꨮꨩ", "ʾꨤꨮ", "ʾꨤꨮꨩ", "ꨯꨮ", "ꨰ", "ꨯ", "ꨯꨱ"]
  SouthVowelSignMap := us!["ꨯꨮʽ", "ꨮʽ"]
  ModernVowelSignMap := us!["ꨯꨮʽ", "ꨩʽ"]
  SinhalaVowelSignMap := us!["ꨯꨮʽ"]
  ViramaMap := us!["ʾ"]
  AyogavahaMap := us!["ꩃ", "ꩌ", "ꩍ"]
  NuktaMap := us!["ʽʽʽʽ"]
  ConsonantMap := us!["ꨆ", "ꨇ", "ꨈ", "ꨉ", "ꨋ", "ꨌ", "ꨍ", "ꨎ", "ꨏ", "ꨑ", "ꨓʽ", "ꨔʽ", "ꨕʽ", "ꨖʽ", "ꨘʽ", "ꨓ", "ꨔ", "ꨕ", "ꨖ", "ꨘ", "ꨚ", "ꨜ", "ꨝ", "ꨞ", "ꨠ", "ꨢ", "ꨣ", "ꨤ", "ꨥ", "ꨦʽ", "ꨦ", "ꨧ", "ꨨ"]
  SouthConsonantMap := us!["ꨤʽ", "ꨤʽ", "ꨣʽ", "ꨘʽ"]
  NuktaConsonantMap := us!["ꨆʽ", "ꨇʽ", "ꨈʽ", "ꨎʽ", "ꨕʽ", "ꨖʽ", "ꨜʽ", "ꨥʽ"]
  SinhalaConsonantMap := us!["ꩌꨈʽ", "ꨒ", "ꨙʽ", "ꨙ", "ꨡ"]
  SignMap := us!["'", "꩝", "꩞"]
  NumeralMap := us!["꩐", "꩑", "꩒", "꩓", "꩔", "꩕", "꩖", "꩗", "꩘", "꩙"]
  Aytham := us!["ꩍʽ"]
  OmMap := us!["ꨅꩌ"]

/-- ScriptMap/EastIndic/DivesAkuru.py -/
def DivesAkuru : Tbl where
  VowelMap := us!["𑤀", "𑤁", "𑤂", "𑤃", "𑤄", "𑤅", "𑤧𑤳", "𑤧𑤴", "𑤨𑤳", "𑤨𑤴", "𑤆", "𑤆𑤵", "𑤉", "𑤀𑤄ʽ"]
  SouthVowelMap := us!["𑤆ʽ", "𑤉ʽ"]
  ModernVowelMap := us!["𑤆ʽ", "𑤁ʽ"]
  SinhalaVowelMap := us!["𑤆ʽ"]
  VowelSignMap := us!["𑤰", "𑤱", "𑤲", "𑤳", "𑤴", "𑥂𑤳ʽ", "𑥂𑤴ʽ", "𑤾𑤨𑤳ʽ", "𑤾𑤨𑤴ʽ", "𑤵", "𑤷", "𑤸", "𑤄ʽ"]
  SouthVowelSignMap := us!["𑤵ʽ", "𑤸ʽ"]
  ModernVowelSignMap := us!["𑤵ʽ", "𑤰ʽ"]
  SinhalaVowelSignMap := us!["𑤵ʽ"]
  ViramaMap := us!["𑤽"]
  AyogavahaMap := us!["𑤼", "𑤻", "𑤭𑤽ʽ"]
  NuktaMap := us!["𑥃"]
  ConsonantMap := us!["𑤌", "𑤍", "𑤎", "𑤏", "𑤐", "𑤑", "𑤒", "𑤓", "𑤓ʽ", "𑤕", "𑤖", "𑤖ʽ", "𑤘", "𑤙", "𑤚", "𑤛", "𑤜", "𑤝", "𑤞", "𑤟", "𑤠", "𑤡", "𑤢", "𑤣", "𑤤", "𑤥", "𑤧", "𑤨", "𑤩", "𑤪", "𑤫", "𑤬", "𑤭"]
  SouthConsonantMap := us!["𑤮", "𑤮𑥃", "𑤧𑥃", "𑤟𑥃"]
  NuktaConsonantMap := us!["𑤌𑥃", "𑤍𑥃", "𑤎𑥃", "𑤯", "𑤘𑥃", "𑤙𑥃", "𑤡𑥃", "𑤥𑥃"]
  SinhalaConsonantMap := us!["𑤿𑤎ʽ", "𑤿𑤓ʽ", "𑤿𑤘ʽ", "𑤿𑤝ʽ", "𑤿𑤢ʽ"]
  SignMap := us!["ʽʽʽ", "𑥆ʽ", "𑥆"]
  NumeralMap := us!["𑥐", "𑥑", "𑥒", "𑥓", "𑥔", "𑥕", "𑥖", "𑥗", "𑥘", "𑥙"]
  Aytham := us!["𑤭𑤽ʽʽ"]
  OmMap := us!["𑤉𑤼"]

/-- ScriptMap/EastIndic/Hanunoo.py -/
def Hanunoo : Tbl where
  VowelMap := us!["ᜠ", "ᜠʽ", "ᜡ", "ᜡʽ", "ᜢ", "ᜢʽ", "ᜮᜳʽ", "ᜮᜳʽ", "ᜮᜳʽ", "ᜮᜳʽ", "ᜡʽ", "ᜠᜡʽ", "ᜢʽ", "ᜠᜢʽ"]
  SouthVowelMap := us!["ᜡʽ", "ᜢʽ"]
  ModernVowelMap := us!["ᜡʽ", "ᜠʽ"]
  SinhalaVowelMap := us!["ᜡʽ"]
  VowelSignMap := us!["ʽʽ", "ᜲ", "ᜲʽ", "ᜳ", "ᜳʽ", "ᜮᜳʽ", "ᜮᜳʽ", "ᜮᜳʽ", "ᜮᜳʽ", "ᜲʽ", "ᜡʽ", "ᜳʽ", "ᜢʽ"]
  SouthVowelSignMap := us!["ᜲʽ", "ᜳʽ"]
  ModernVowelSignMap := us!["ᜲʽ", "ʽʽ"]
  SinhalaVowelSignMap := us!["ᜲʽ"]
  ViramaMap := us!["᜴"]
  AyogavahaMap := us!["ᜫ᜴ʽ", "ᜫ᜴ʽ", "ᜣ᜴ʽ"]
  NuktaMap := us!["ʽʽʽʽ"]
  ConsonantMap := us!["ᜣ", "ᜣʽ", "ᜤ", "ᜤʽ", "ᜥ", "ᜰʽ", "ᜰʽ", "ᜧʽ", "ᜧʽ", "ᜨʽ", "ᜦʽ", "ᜦʽ", "ᜧʽ", "ᜧʽ", "ᜨʽ", "ᜦ", "ᜦʽ", "ᜧ", "ᜧʽ", "ᜨ", "ᜩ", "ᜩʽ", "ᜪ", "ᜪʽ", "ᜫ", "ᜬ", "ᜭ", "ᜮ", "ᜯ", "ᜰʽ", "ᜰʽ", "ᜰ", "ᜣʽ"]
  SouthConsonantMap := us!["ᜮʽ", "ᜮʽ", "ᜮʽ", "ᜨʽ"]
  NuktaConsonantMap := us!["ᜣʽ", "ᜣʽ", "ᜤʽ", "ᜧʽ", "ᜧʽ", "ᜧʽ", "ᜩʽ", "ᜬʽ"]
  SinhalaConsonantMap := us!["ᜥᜤʽ", "ᜨᜧʽ", "ᜨᜧʽ", "ᜨᜧʽ", "ᜫᜪʽ"]
  SignMap := us!["ʽʽ", "᜵", "᜶"]
  NumeralMap := us!["0", "1", "2", "3", "4", "5", "6", "7", "8", "9"]
  Aytham := us!["ᜣ᜴ʽʽ"]
  OmMap := us!["ᜢᜫ᜴ʽ"]

/-- ScriptMap/EastIndic/Javanese.py -/
def Javanese : Tbl where
  VowelMap := us!["ꦄ", "ꦄꦴ", "ꦆ", "ꦇ", "ꦈ", "ꦈꦴ", "ꦉ", "ꦉꦴ", "ꦊ", "ꦋ", "ꦌ", "ꦍ", "ꦎ", "ꦎꦴ"]
  SouthVowelMap := us!["ꦌʽ", "ꦎʽ"]
  ModernVowelMap := us!["ꦄꦼ", "ꦄꦴʽ"]
  SinhalaVowelMap := us!["ꦄꦼꦴ"]
  VowelSignMap := us!["ꦴ", "ꦶ", "ꦷ", "ꦸ", "ꦹ", "ꦽ", "꧀ꦉꦴ", "꧀ꦊ", "꧀ꦋ", "ꦺ", "ꦻ", "ꦺꦴ", "ꦻꦴ"]
  SouthVowelSignMap := us!["ꦺʽ", "ꦺꦴʽ"]
  ModernVowelSignMap := us!["ꦼ", "ꦴʽ"]
  SinhalaVowelSignMap := us!["ꦼꦴ"]
  ViramaMap := us!["꧀"]
  AyogavahaMap := us!["ꦀ", "ꦁ", "ꦃ"]
  NuktaMap := us!["꦳"]
  ConsonantMap := us!["ꦏ", "ꦑ", "ꦒ", "ꦓ", "ꦔ", "ꦕ", "ꦖ", "ꦗ", "ꦙ", "ꦚ", "ꦛ", "ꦜ", "ꦝ", "ꦞ", "ꦟ", "ꦠ", "ꦡ", "ꦢ", "ꦣ", "ꦤ", "ꦥ", "ꦦ", "ꦧ", "ꦨ", "ꦩ", "ꦪ", "ꦫ", "ꦭ", "ꦮ", "ꦯ", "ꦰ", "ꦱ", "ꦲ"]
  SouthConsonantMap := us!["ꦭ꦳", "ꦰ꦳", "ꦫ꦳", "ꦤ꦳"]
  NuktaConsonantMap := us!["ꦏ꦳", "ꦑ꦳", "ꦒ꦳", "ꦗ꦳", "ꦝ꦳", "ꦞ꦳", "ꦥ꦳", "ꦪ꦳"]
  SinhalaConsonantMap := us!["ꦀꦒʽ", "ꦀꦗʽ", "ꦀꦝʽ", "ꦀꦢʽ", "ꦀꦧʽ"]
  SignMap := us!["'", "꧈", "꧉"]
  NumeralMap := us!["꧐", "꧑", "꧒", "꧓", "꧔", "꧕", "꧖", "꧗", "꧘", "꧙"]
  Aytham := us!["ꦃʽ"]
  OmMap := us!["ꦎꦀ"]

/-- ScriptMap/EastIndic/Kawi.py -/
def Kawi : Tbl where
  VowelMap := us!["𑼄", "𑼅", "𑼆", "𑼇", "𑼈", "𑼉", "𑼊", "𑼋", "𑼌", "𑼍", "𑼎", "𑼏", "𑼐", "𑼐𑼴"]
  SouthVowelMap := us!["𑼎ʽ", "𑼐ʽ"]
  ModernVowelMap := us!["𑼄𑽀", "𑼅ʽ"]
  SinhalaVowelMap := us!["𑼄𑽀𑼴"]
  VowelSignMap := us!["𑼴", "𑼶", "𑼷", "𑼸", "𑼹", "𑼺", "𑽂𑼋", "𑽂𑼌", "𑽂𑼍", "𑼾", "𑼿", "𑼾𑼴", "𑼿𑼴"]
  SouthVowelSignMap := us!["𑼾ʽ", "𑼾𑼴ʽ"]
  ModernVowelSignMap := us!["𑽀", "𑼴ʽ"]
  SinhalaVowelSignMap := us!["𑽀𑼴"]
  ViramaMap := us!["𑽁"]
  AyogavahaMap := us!["𑼀", "𑼁", "𑼃"]
  NuktaMap := us!["ʽʽʽʽ"]
  ConsonantMap := us!["𑼒", "𑼓", "𑼔", "𑼕", "𑼖", "𑼗", "𑼘", "𑼙", "𑼚", "𑼛", "𑼜", "𑼝", "𑼞", "𑼟", "𑼠", "𑼡", "𑼢", "𑼣", "𑼤", "𑼥", "𑼦", "𑼧", "𑼨", "𑼩", "𑼪", "𑼫", "𑼬", "𑼭", "𑼮", "𑼯", "𑼰", "𑼱", "𑼲"]
  SouthConsonantMap := us!["𑼭ʽ", "𑼭ʽ", "𑼬ʽ", "𑼥ʽ"]
  NuktaConsonantMap := us!["𑼒ʽ", "𑼓ʽ", "𑼔ʽ", "𑼙ʽ", "𑼞ʽ", "𑼞ʽ", "𑼧ʽ", "𑼫ʽ"]
  SinhalaConsonantMap := us!["𑼀𑼔ʽ", "𑼀𑼙ʽ", "𑼀𑼞ʽ", "𑼀𑼣ʽ", "𑼀𑼨ʽ"]
  SignMap := us!["ʽʽʽ", "𑽃", "𑽄"]
  NumeralMap := us!["𑽐", "𑽑", "𑽒", "𑽓", "𑽔", "𑽕", "𑽖", "𑽗", "𑽘", "𑽙"]
  Aytham := us!["𑼃ʽ"]
  OmMap := us!["𑼐𑼀"]

/-- ScriptMap/EastIndic/KhamtiShan.py -/
def KhamtiShan : Tbl where
  VowelMap := us!["ဢ", "ဢႃ", "ဢိ", "ဢီ", "ဢု", "ဢူ", "ရိʽ", "ရီʽ", "လိʽ", "လီʽ", "ဢေ", "ဢႆ", "ဢေႃ", "ဢဝ်ʽ"]
  SouthVowelMap := us!["ဢေʽ", "ဢူဝ်ʽ"]
  ModernVowelMap := us!["ဢႄ", "ဢႃʽ"]
  SinhalaVowelMap := us!["ဢႄʽ"]
  VowelSignMap := us!["ႃ", "ိ", "ီ", "ု", "ူ", "်ရိʽ", "်ရီʽ", "်လိʽ", "်လီʽ", "ေ", "ႆ", "ေႃ", "ဝ်ʽ"]
  SouthVowelSignMap := us!["ေʽ", "ူဝ်ʽ"]
  ModernVowelSignMap := us!["ႄ", "ႃʽ"]
  SinhalaVowelSignMap := us!["ႄʽ"]
  ViramaMap := us!["်"]
  AyogavahaMap := us!["ံʽ", "ံ", "း"]
  NuktaMap := us!["ʽʽ"]
  ConsonantMap := us!["က", "ၵ", "ꩠ", "ၷ", "င", "ꩡ", "ꩢ", "ꩣ", "ꩤ", "ꩥ", "ꩦ", "ꩧ", "ꩨ", "ꩩ", "ꧣ", "တ", "ထ", "ၻ", "ꩪ", "ꩫ", "ပ", "ၸ", "ၿ", "ၹ", "မ", "ယ", "ရ", "လ", "ဝ", "ꩬʽ", "ꩬʽ", "ꩬ", "ꩭ"]
  SouthConsonantMap := us!["ꩮ", "ꩮʽ", "ရʽ", "ၼʽ"]
  NuktaConsonantMap := us!["ကʽ", "ꩱ", "ꩠʽ", "ꩲ", "ꩨʽ", "ꩩʽ", "ꩯ", "ယʽ"]
  SinhalaConsonantMap := us!["ံၷʽ", "ံꩡʽ", "ံꩨʽ", "ံၻʽ", "ံၿʽ"]
  SignMap := us!["'", "၊", "။"]
  NumeralMap := us!["႐", "႑", "႒", "႓", "႔", "႕", "႖", "႗", "႘", "႙"]
  Aytham := us!["းʽ"]
  OmMap := us!["ဢေႃံ"]

/-- ScriptMap/EastIndic/Khmer.py -/
def Khmer : Tbl where
  VowelMap := us!["អ", "អា", "ឥ", "ឦ", "ឧ", "ឩ", "ឫ", "ឬ", "ឭ", "ឮ", "ឯ", "ឰ", "ឱ", "ឳ"]
  SouthVowelMap := us!["ឯʽ", "ឱʽ"]
  ModernVowelMap := us!["ឯʽ", "អាʽ"]
  SinhalaVowelMap := us!["ឯʽ"]
  VowelSignMap := us!["ា", "ិ", "ី", "ុ", "ូ", "្ឫ", "្ឬ", "្ឭ", "្ឮ", "េ", "ៃ", "ោ", "ៅ"]
  SouthVowelSignMap := us!["េʽ", "ោʽ"]
  ModernVowelSignMap := us!["េʽ", "ាʽ"]
  SinhalaVowelSignMap := us!["េʽ"]
  ViramaMap := us!["៑"]
  AyogavahaMap := us!["ំʽ", "ំ", "ះ"]
  NuktaMap := us!["ʽʽʽʽ"]
  ConsonantMap := us!["ក", "ខ", "គ", "ឃ", "ង", "ច", "ឆ", "ជ", "ឈ", "ញ", "ដ", "ឋ", "ឌ", "ឍ", "ណ", "ត", "ថ", "ទ", "ធ", "ន", "ប", "ផ", "ព", "ភ", "ម", "យ", "រ", "ល", "វ", "ឝ", "ឞ", "ស", "ហ"]
  SouthConsonantMap := us!["ឡ", "ឡʽ", "រʽ", "នʽ"]
  NuktaConsonantMap := us!["កʽ", "ខʽ", "គʽ", "ជʽ", "ឌʽ", "ឍʽ", "ផʽ", "យʽ"]
  SinhalaConsonantMap := us!["ំគʽ", "ំជʽ", "ំឌʽ", "ំទʽ", "ំពʽ"]
  SignMap := us!["ៜ", "។", "៕"]
  NumeralMap := us!["០", "១", "២", "៣", "៤", "៥", "៦", "៧", "៨", "៩"]
  Aytham := us!["ះʽ"]
  OmMap := us!["ឱំ"]

/-- ScriptMap/EastIndic/KhmerLoC.py -/
def KhmerLoC : Tbl where
  VowelMap := us!["អʽ", "អាʽ", "ឥ", "ឦ", "ឧ", "ឩ", "ឫ", "ឬ", "ឭ", "ឮ", "អេʽ", "ឰ", "ឱ", "ឳ"]
  SouthVowelMap := us!["ឯʽ", "ឱʽ"]
  ModernVowelMap := us!["ឯ", "អាʽ"]
  SinhalaVowelMap := us!["ឯʽ"]
  VowelSignMap := us!["ា", "ិ", "ី", "ុ", "ូ", "្ឫ", "្ឬ", "្ឭ", "្ឮ", "េ", "ៃ", "ោ", "ៅ"]
  SouthVowelSignMap := us!["េʽ", "ោʽ"]
  ModernVowelSignMap := us!["ែ", "ាʽ"]
  SinhalaVowelSignMap := us!["េʽ"]
  ViramaMap := us!["៑"]
  AyogavahaMap := us!["ំʽ", "ំ", "ះ"]
  NuktaMap := us!["ʽʽʽʽ"]
  ConsonantMap := us!["ក", "ខ", "គ", "ឃ", "ង", "ច", "ឆ", "ជ", "ឈ", "ញ", "ដ", "ឋ", "ឌ", "ឍ", "ណ", "ត", "ថ", "ទ", "ធ", "ន", "ប", "ផ", "ព", "ភ", "ម", "យ", "រ", "ល", "វ", "ឝ", "ឞ", "ស", "ហ"]
  SouthConsonantMap := us!["ឡ", "ឡʽ", "រʽ", "នʽ"]
  NuktaConsonantMap := us!["កʽ", "ខʽ", "គʽ", "ជʽ", "ឌʽ", "ឍʽ", "ផʽ", "យʽ"]
  SinhalaConsonantMap := us!["ំគʽ", "ំជʽ", "ំឌʽ", "ំទʽ", "ំពʽ"]
  SignMap := us!["ៜ", "។", "៕"]
  NumeralMap := us!["០", "១", "២", "៣", "៤", "៥", "៦", "៧", "៨", "៩"]
  Aytham := us!["ះʽ"]
  OmMap := us!["ឱំ"]

/-- ScriptMap/EastIndic/KhomThai.py -/
def KhomThai : Tbl where
  VowelMap := us!["อ", "อา", "อิ", "อี", "อุ", "อู", "รุʽ", "รูʽ", "ลุʽ", "ลูʽ", "อเ", "อยฺʽ", "อโ", "อวฺʽ"]
  SouthVowelMap := us!["อเʽ", "อโʽ"]
  ModernVowelMap := us!["อแʽ", "อาʽ"]
  SinhalaVowelMap := us!["อแ"]
  VowelSignMap := us!["า", "ิ", "ี", "ุ", "ู", "ฺฤ", "ฺฤๅ", "ฺลุʽ", "ฺลูʽ", "เ", "ใ", "โ", "วฺʽ"]
  SouthVowelSignMap := us!["เʽ", "โʽ"]
  ModernVowelSignMap := us!["แʽ", "าʽ"]
  SinhalaVowelSignMap := us!["แ"]
  ViramaMap := us!["ฺ"]
  AyogavahaMap := us!["ํʽ", "ํ", "หฺʽ"]
  NuktaMap := us!["ʽʽʽʽ"]
  ConsonantMap := us!["ก", "ข", "ค", "ฆ", "ง", "จ", "ฉ", "ช", "ฌ", "ญ", "ฏ", "ฐ", "ฑ", "ฒ", "ณ", "ต", "ถ", "ท", "ธ", "น", "ป", "ผ", "พ", "ภ", "ม", "ย", "ร", "ล", "ว", "สʽ", "สʽ", "ส", "ห"]
  SouthConsonantMap := us!["ฬ", "ฬʽ", "รʽ", "นʽ"]
  NuktaConsonantMap := us!["กʽ", "ขʽ", "คʽ", "ชʽ", "รʽ", "รฺหʽ", "ผʽ", "ยʽ"]
  SinhalaConsonantMap := us!["ํคʽ", "ํชʽ", "ํฑʽ", "ํทʽ", "ํพʽ"]
  SignMap := us!["ʽʽ", "ฯ", "๚"]
  NumeralMap := us!["๐", "๑", "๒", "๓", "๔", "๕", "๖", "๗", "๘", "๙"]
  Aytham := us!["หฺʽʽ"]
  OmMap := us!["อโํ"]

/-- ScriptMap/EastIndic/KhuenTham.py -/
def KhuenTham : Tbl where
  VowelMap := us!["ᩋ", "ᩋᩣ", "ᩍ", "ᩎ", "ᩏ", "ᩐ", "ᩂ", "ᩂᩣ", "ᩄ", "ᩄᩣ", "ᩑ", "ᩋᩱ", "ᩒ", "ᩏᩫᩣ"]
  SouthVowelMap := us!["ᩑʽ", "ᩒʽ"]
  ModernVowelMap := us!["ᩑʽ", "ᩋᩣʽ"]
  SinhalaVowelMap := us!["ᩑʽ"]
  VowelSignMap := us!["ᩣ", "ᩥ", "ᩦ", "ᩩ", "ᩪ", "᩺ᩂ", "᩺ᩂᩣ", "᩺ᩄ", "᩺ᩄᩣ", "ᩮ", "ᩱ", "ᩮᩣ", "ᩮᩫᩣ"]
  SouthVowelSignMap := us!["ᩮʽ", "ᩮᩣʽ"]
  ModernVowelSignMap := us!["ᩮʽ", "ᩣʽ"]
  SinhalaVowelSignMap := us!["ᩮʽ"]
  ViramaMap := us!["᩺"]
  AyogavahaMap := us!["ᩴʽ", "ᩴ", "ᩡ"]
  NuktaMap := us!["ʽʽʽʽ"]
  ConsonantMap := us!["ᨠ", "ᨡ", "ᨣ", "ᨥ", "ᨦ", "ᨧ", "ᨨ", "ᨩ", "ᨫ", "ᨬ", "ᨭ", "ᨮ", "ᨯ", "ᨰ", "ᨱ", "ᨲ", "ᨳ", "ᨴ", "ᨵ", "ᨶ", "ᨸ", "ᨹ", "ᨻ", "ᨽ", "ᨾ", "ᨿ", "ᩁ", "ᩃ", "ᩅ", "ᩆ", "ᩇ", "ᩈ", "ᩉ"]
  SouthConsonantMap := us!["ᩊ", "ᩊʽ", "ᩁʽ", "ᨶʽ"]
  NuktaConsonantMap := us!["ᨠʽ", "ᨡʽ", "ᨣʽ", "ᨩʽ", "ᨯʽ", "ᨰʽ", "ᨹʽ", "ᨿʽ"]
  SinhalaConsonantMap := us!["ᩴᨣʽ", "ᩴᨩʽ", "ᩴᨯʽ", "ᩴᨴʽ", "ᩴᨽʽ"]
  SignMap := us!["'", "᪨", "᪩"]
  NumeralMap := us!["᪐", "᪑", "᪒", "᪓", "᪔", "᪕", "᪖", "᪗", "᪘", "᪙"]
  Aytham := us!["ᩡʽ"]
  OmMap := us!["ᩒᩴ"]

/-- ScriptMap/EastIndic/Lao.py -/
def Lao : Tbl where
  VowelMap := us!["ອ", "ອາ", "ອິ", "ອີ", "ອຸ", "ອູ", "ຣຸʽ", "ຣູʽ", "ລຸʽ", "ລູʽ", "ອເ", "ອໄ", "ອໂ", "ອເົາ"]
  SouthVowelMap := us!["ອເະ", "ອໂະ"]
  ModernVowelMap := us!["ອແະ", "ອເາະ"]
  SinhalaVowelMap := us!["ອແ"]
  VowelSignMap := us!["າ", "ິ", "ີ", "ຸ", "ູ", "຺ຣຸʽ", "຺ຣູʽ", "຺ລຸʽ", "຺ລູʽ", "ເ", "ໄ", "ໂ", "ເົາ"]
  SouthVowelSignMap := us!["ເະ", "ໂະ"]
  ModernVowelSignMap := us!["ແະ", "ເາະ"]
  SinhalaVowelSignMap := us!["ແ"]
  ViramaMap := us!["຺"]
  AyogavahaMap := us!["ໍʽ", "ໍ", "ຫ຺ʽ"]
  NuktaMap := us![""]
  ConsonantMap := us!["ກ", "ຂ", "ຄ", "ຄʽ", "ງ", "ຈ", "ຈʽ", "ຊ", "ຊʽ", "ຍ", "ຕʽ", "ຖʽ", "ທʽ", "ທʽ", "ນʽ", "ຕ", "ຖ", "ທ", "ທʽ", "ນ", "ປ", "ຜ", "ພ", "ພʽ", "ມ", "ຢ", "ຣ", "ລ", "ວ", "ສʽ", "ສʽ", "ສ", "ຫ"]
  SouthConsonantMap := us!["ລʽ", "ລʽ", "ຮ", "ນʽ"]
  NuktaConsonantMap := us!["ກʽ", "ຂʽ", "ຄʽ", "ຊʽ", "ທʽ", "ທʽ", "ຝ", "ຢʽ"]
  SinhalaConsonantMap := us!["ໍຄʽ", "ໍຊʽ", "ໍທʽ", "ໍທʽ", "ໍພʽ"]
  SignMap := us!["'", "ຯ", "ຯຯ"]
  NumeralMap := us!["໐", "໑", "໒", "໓", "໔", "໕", "໖", "໗", "໘", "໙"]
  Aytham := us!["ຫ຺ʽʽ"]
  OmMap := us!["ໂອງ຺"]

/-- ScriptMap/EastIndic/Lao2.py -/
def Lao2 : Tbl where
  VowelMap := us!["ອ", "ອາ", "ອິ", "ອີ", "ອຸ", "ອູ", "ຣຸʽ", "ຣູʽ", "ລຸʽ", "ລູʽ", "ເອ", "ໄອ", "ໂອ", "ເອົາ"]
  SouthVowelMap := us!["ເອະ", "ໂອະ"]
  ModernVowelMap := us!["ແອະ", "ເອາະ"]
  SinhalaVowelMap := us!["ແອ"]
  VowelSignMap := us!["າ", "ິ", "ີ", "ຸ", "ູ", "຺ຣຸʽ", "຺ຣູʽ", "຺ລຸʽ", "຺ລູʽ", "ເ", "ໄ", "ໂ", "ເົາ"]
  SouthVowelSignMap := us!["ເະ", "ໂະ"]
  ModernVowelSignMap := us!["ແະ", "ເາະ"]
  SinhalaVowelSignMap := us!["ແ"]
  ViramaMap := us!["຺"]
  AyogavahaMap := us!["ໍʽ", "ໍ", "ຫ຺ʽ"]
  NuktaMap := us![""]
  ConsonantMap := us!["ກ", "ຂ", "ຄ", "ຄʽ", "ງ", "ຈ", "ສ", "ຊ", "ຊʽ", "ຍ", "ຕʽ", "ຖʽ", "ທʽ", "ທʽ", "ນʽ", "ຕ", "ຖ", "ທ", "ທʽ", "ນ", "ປ", "ຜ", "ພ", "ພʽ", "ມ", "ຍ", "ຣ", "ລ", "ວ", "ສʽ", "ສʽ", "ສ", "ຫ"]
  SouthConsonantMap := us!["ລʽ", "ລʽ", "ຮ", "ນʽ"]
  NuktaConsonantMap := us!["ກʽ", "ຂʽ", "ຄʽ", "ຊʽ", "ດʽ", "ທʽ", "ຝ", "ຢʽ"]
  SinhalaConsonantMap := us!["ໍຄʽ", "ໍຊʽ", "ໍທʽ", "ໍທʽ", "ໍພʽ"]
  SignMap := us!["'", "ຯ", "ຯຯ"]
  NumeralMap := us!["໐", "໑", "໒", "໓", "໔", "໕", "໖", "໗", "໘", "໙"]
  Aytham := us!["ຫ຺ʽʽ"]
  OmMap := us!["ໂອງ຺"]

/-- ScriptMap/EastIndic/LaoPali.py -/
def LaoPali : Tbl where
  VowelMap := us!["ອ", "ອາ", "ອິ", "ອີ", "ອຸ", "ອູ", "ຣຸʽ", "ຣູʽ", "ລຸʽ", "ລູʽ", "ອເ", "ອໄ", "ອໂ", "ອເົາ"]
  SouthVowelMap := us!["ອເະ", "ອໂະ"]
  ModernVowelMap := us!["ອແະ", "ອເາະ"]
  SinhalaVowelMap := us!["ອແ"]
  VowelSignMap := us!["າ", "ິ", "ີ", "ຸ", "ູ", "຺ຣຸʽ", "຺ຣູʽ", "຺ລຸʽ", "຺ລູʽ", "ເ", "ໄ", "ໂ", "ເົາ"]
  SouthVowelSignMap := us!["ເະ", "ໂະ"]
  ModernVowelSignMap := us!["ແະ", "ເາະ"]
  SinhalaVowelSignMap := us!["ແ"]
  ViramaMap := us!["຺"]
  AyogavahaMap := us!["ໍʽ", "ໍ", "ຫ໌"]
  NuktaMap := us!["ʽʽʽʽ"]
  ConsonantMap := us!["ກ", "ຂ", "ຄ", "ຆ", "ງ", "ຈ", "ຉ", "ຊ", "ຌ", "ຎ", "ຏ", "ຐ", "ຑ", "ຒ", "ຓ", "ຕ", "ຖ", "ທ", "ຘ", "ນ", "ປ", "ຜ", "ພ", "ຠ", "ມ", "ຍ", "ຣ", "ລ", "ວ", "ຨ", "ຩ", "ສ", "ຫ"]
  SouthConsonantMap := us!["ຬ", "ຬʽ", "ຮ", "ນʽ"]
  NuktaConsonantMap := us!["ກʽ", "ຂʽ", "ຄʽ", "ຊʽ", "ຐʽ", "ຑʽ", "ຝ", "ຢ"]
  SinhalaConsonantMap := us!["ໍຄʽ", "ໍຊʽ", "ໍຐʽ", "ໍທʽ", "ໍພʽ"]
  SignMap := us!["'", "ຯ", "ຯຯ"]
  NumeralMap := us!["໐", "໑", "໒", "໓", "໔", "໕", "໖", "໗", "໘", "໙"]
  Aytham := us!["ຫ໌ʽ"]
  OmMap := us!["ໂອໍʽ"]

/-- ScriptMap/EastIndic/LaoTham.py -/
def LaoTham : Tbl where
  VowelMap := us!["ᩋ", "ᩋᩣ", "ᩍ", "ᩎ", "ᩏ", "ᩐ", "ᩂ", "ᩂᩣ", "ᩄ", "ᩄᩣ", "ᩑ", "ᩋᩱ", "ᩒ", "ᩏᩫᩣ"]
  SouthVowelMap := us!["ᩑʽ", "ᩒʽ"]
  ModernVowelMap := us!["ᩑʽ", "ᩋᩣʽ"]
  SinhalaVowelMap := us!["ᩑʽ"]
  VowelSignMap := us!["ᩣ", "ᩥ", "ᩦ", "ᩩ", "ᩪ", "᩺ᩂ", "᩺ᩂᩣ", "᩺ᩄ", "᩺ᩄᩣ", "ᩮ", "ᩱ", "ᩮᩣ", "ᩮᩫᩣ"]
  SouthVowelSignMap := us!["ᩮʽ", "ᩮᩣʽ"]
  ModernVowelSignMap := us!["ᩮʽ", "ᩣʽ"]
  SinhalaVowelSignMap := us!["ᩮʽ"]
  ViramaMap := us!["᩺"]
  AyogavahaMap := us!["ᩴʽ", "ᩴ", "ᩡ"]
  NuktaMap := us!["ʽʽʽʽ"]
  ConsonantMap := us!["ᨠ", "ᨡ", "ᨣ", "ᨥ", "ᨦ", "ᨧ", "ᨨ", "ᨩ", "ᨫ", "ᨬ", "ᨭ", "ᨮ", "ᨯ", "ᨰ", "ᨱ", "ᨲ", "ᨳ", "ᨴ", "ᨵ", "ᨶ", "ᨸ", "ᨹ", "ᨻ", "ᨽ", "ᨾ", "ᨿ", "ᩁ", "ᩃ", "ᩅ", "ᩆ", "ᩇ", "ᩈ", "ᩉ"]
  SouthConsonantMap := us!["ᩊ", "ᩊʽ", "ᩁʽ", "ᨶʽ"]
  NuktaConsonantMap := us!["ᨠʽ", "ᨡʽ", "ᨣʽ", "ᨩʽ", "ᨯʽ", "ᨰʽ", "ᨹʽ", "ᨿʽ"]
  SinhalaConsonantMap := us!["ᩴᨣʽ", "ᩴᨩʽ", "ᩴᨯʽ", "ᩴᨴʽ", "ᩴᨽʽ"]
  SignMap := us!["'", "᪨", "᪩"]
  NumeralMap := us!["᪐", "᪑", "᪒", "᪓", "᪔", "᪕", "᪖", "᪗", "᪘", "᪙"]
  Aytham := us!["ᩡʽ"]
  OmMap := us!["ᩒᩴ"]

/-- ScriptMap/EastIndic/LueTham.py -/
def LueTham : Tbl where
  VowelMap := us!["ᩋ", "ᩋᩣ", "ᩍ", "ᩎ", "ᩏ", "ᩐ", "ᩂ", "ᩂᩣ", "ᩄ", "ᩄᩣ", "ᩑ", "ᩋᩱ", "ᩒ", "ᩏᩫᩣ"]
  SouthVowelMap := us!["ᩑʽ", "ᩒʽ"]
  ModernVowelMap := us!["ᩑʽ", "ᩋᩣʽ"]
  SinhalaVowelMap := us!["ᩑʽ"]
  VowelSignMap := us!["ᩣ", "ᩥ", "ᩦ", "ᩩ", "ᩪ", "᩺ᩂ", "᩺ᩂᩣ", "᩺ᩄ", "᩺ᩄᩣ", "ᩮ", "ᩱ", "ᩮᩣ", "ᩮᩫᩣ"]
  SouthVowelSignMap := us!["ᩮʽ", "ᩮᩣʽ"]
  ModernVowelSignMap := us!["ᩮʽ", "ᩣʽ"]
  SinhalaVowelSignMap := us!["ᩮʽ"]
  ViramaMap := us!["᩺"]
  AyogavahaMap := us!["ᩴʽ", "ᩴ", "ᩡ"]
  NuktaMap := us!["ʽʽʽʽ"]
  ConsonantMap := us!["ᨠ", "ᨡ", "ᨣ", "ᨥ", "ᨦ", "ᨧ", "ᨨ", "ᨩ", "ᨫ", "ᨬ", "ᨭ", "ᨮ", "ᨯ", "ᨰ", "ᨱ", "ᨲ", "ᨳ", "ᨴ", "ᨵ", "ᨶ", "ᨸ", "ᨹ", "ᨻ", "ᨽ", "ᨾ", "ᨿ", "ᩁ", "ᩃ", "ᩅ", "ᩆ", "ᩇ", "ᩈ", "ᩉ"]
  SouthConsonantMap := us!["ᩊ", "ᩊʽ", "ᩁʽ", "ᨶʽ"]
  NuktaConsonantMap := us!["ᨠʽ", "ᨡʽ", "ᨣʽ", "ᨩʽ", "ᨯʽ", "ᨰʽ", "ᨹʽ", "ᨿʽ"]
  SinhalaConsonantMap := us!["ᩴᨣʽ", "ᩴᨩʽ", "ᩴᨯʽ", "ᩴᨴʽ", "ᩴᨽʽ"]
  SignMap := us!["'", "᪨", "᪩"]
  NumeralMap := us!["᪐", "᪑", "᪒", "᪓", "᪔", "᪕", "᪖", "᪗", "᪘", "᪙"]
  Aytham := us!["ᩡʽ"]
  OmMap := us!["ᩒᩴ"]

/-- ScriptMap/EastIndic/Makasar.py -/
def Makasar : Tbl where
  VowelMap := us!["𑻱", "𑻱ʽ", "𑻱𑻳", "𑻱𑻳ʽ", "𑻱𑻴", "𑻱𑻴ʽ", "𑻭𑻴ʽ", "𑻭𑻴ʽ", "𑻮𑻴ʽ", "𑻮𑻴ʽ", "𑻱𑻵ʽ", "𑻱𑻱𑻳ʽ", "𑻱𑻶ʽ", "𑻱𑻱𑻴ʽ"]
  SouthVowelMap := us!["𑻱𑻵", "𑻱𑻶"]
  ModernVowelMap := us!["𑻱𑻵ʽ", "𑻱ʽ"]
  SinhalaVowelMap := us!["𑻱ʽ"]
  VowelSignMap := us!["ʽʽ", "𑻳", "𑻳ʽ", "𑻴", "𑻴ʽ", "𑻭𑻴ʽ", "𑻭𑻴ʽ", "𑻮𑻴ʽ", "𑻮𑻴ʽ", "𑻵ʽ", "𑻱𑻳ʽ", "𑻶ʽ", "𑻱𑻴ʽ"]
  SouthVowelSignMap := us!["𑻵", "𑻶"]
  ModernVowelSignMap := us!["𑻵ʽ", "ʽʽʽ"]
  SinhalaVowelSignMap := us!["𑻵ʽ"]
  ViramaMap := us!["ʾ"]
  AyogavahaMap := us!["𑻥ʽ", "𑻥ʽ", "ʽʽʽ"]
  NuktaMap := us!["ʽʽʽʽ"]
  ConsonantMap := us!["𑻠", "𑻠ʽ", "𑻡", "𑻡ʽ", "𑻢", "𑻩", "𑻩ʽ", "𑻪", "𑻪ʽ", "𑻫", "𑻦ʽ", "𑻦ʽ", "𑻧ʽ", "𑻧ʽ", "𑻨ʽ", "𑻦", "𑻦ʽ", "𑻧", "𑻧ʽ", "𑻨", "𑻣", "𑻣ʽ", "𑻤", "𑻤ʽ", "𑻥", "𑻬", "𑻭", "𑻮", "𑻯", "𑻰ʽ", "𑻰ʽ", "𑻰", "𑻠ʽ"]
  SouthConsonantMap := us!["𑻮ʽ", "𑻮ʽ", "𑻭ʽ", "𑻨ʽ"]
  NuktaConsonantMap := us!["𑻠ʽ", "𑻠ʽ", "𑻡ʽ", "𑻪ʽ", "𑻧ʽ", "𑻧ʽ", "𑻣ʽ", "𑻬ʽ"]
  SinhalaConsonantMap := us!["𑻥𑻡ʽ", "𑻥𑻪ʽ", "𑻥𑻧ʽ", "𑻥𑻧ʽ", "𑻥𑻤ʽ"]
  SignMap := us!["ʽʽ", "𑻷", "𑻷𑻷"]
  NumeralMap := us!["۰", "۱", "۲", "۳", "۴", "۵", "۶", "۷", "۸", "۹"]
  Aytham := us!["ʽʽʽʼ"]
  OmMap := us!["𑻱𑻶𑻥ʽ"]

/-- ScriptMap/EastIndic/Marchen.py -/
def Marchen : Tbl where
  VowelMap := us!["𑲏", "𑲏𑲰", "𑲏𑲱", "𑲏𑲱𑲰", "𑲏𑲲", "𑲏𑲲𑲰", "𑲊𑲱ʽ", "𑲊𑲱𑲰ʽ", "𑲋𑲱ʽ", "𑲋𑲱𑲰ʽ", "𑲏𑲳", "𑲏𑲳𑲰", "𑲏𑲴", "𑲏𑲰𑲴"]
  SouthVowelMap := us!["𑲏𑲳ʽ", "𑲏𑲴ʽ"]
  ModernVowelMap := us!["𑲏𑲳ʽ", "𑲏𑲰ʽ"]
  SinhalaVowelMap := us!["𑲏𑲳ʽ"]
  VowelSignMap := us!["𑲰", "𑲱", "𑲱𑲰", "𑲲", "𑲲𑲰", "𑲪𑲱ʽ", "𑲪𑲱𑲰ʽ", "𑲫𑲱ʽ", "𑲫𑲱𑲰ʽ", "𑲳", "𑲳𑲰", "𑲴", "𑲰𑲴"]
  SouthVowelSignMap := us!["𑲳ʽ", "𑲴ʽ"]
  ModernVowelSignMap := us!["𑲳ʽ", "𑲰ʽ"]
  SinhalaVowelSignMap := us!["𑲳ʽ"]
  ViramaMap := us!["ʾ"]
  AyogavahaMap := us!["𑲶", "𑲵", "𑲎ʽ"]
  NuktaMap := us!["ʽʽ"]
  ConsonantMap := us!["𑱲", "𑱳", "𑱴", "𑱴ʿ𑲮", "𑱵", "𑲂", "𑲃", "𑲄", "𑲄ʿ𑲮", "𑱹", "𑱺ʽ", "𑱻ʽ", "𑱼ʽ", "𑱼𑲮ʽ", "𑱽ʽ", "𑱺", "𑱻", "𑱼", "𑱼ʿ𑲮", "𑱽", "𑱾", "𑱿", "𑲀", "𑲀ʿ𑲮", "𑲁", "𑲉", "𑲊", "𑲋", "𑲅", "𑲌", "𑲌ʽ", "𑲍", "𑲎"]
  SouthConsonantMap := us!["𑲋ʽ", "𑲋ʽ", "𑲊ʽ", "𑱽ʽ"]
  NuktaConsonantMap := us!["𑱲ʽ", "𑱳ʽ", "𑱴ʽ", "𑲇", "𑱼ʽ", "𑱼𑲮ʽ", "𑱿ʽ", "𑲉ʽ"]
  SinhalaConsonantMap := us!["𑲶𑱴ʽ", "𑲶𑲄ʽ", "𑲶𑱼ʽ", "𑲶𑱼ʽ", "𑲶𑲀ʽ"]
  SignMap := us!["ʽʽʽ", "𑱱", "𑱱𑱱"]
  NumeralMap := us!["༠", "༡", "༢", "༣", "༤", "༥", "༦", "༧", "༨", "༩"]
  Aytham := us!["𑲎ʽʽ"]
  OmMap := us!["𑲏𑲴𑲶"]

end Verif.Base
