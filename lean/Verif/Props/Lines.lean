import Verif.Lib.LineOptions
import Verif.Props.Plain

/-!
# C49, C50: converting line by line and word by word

The full claims, for every pair of scripts and every text: converting a text gives its lines
(words), converted one by one, with the newlines (blanks) between them.

They are false of the code, see the `_violated` theorems; the `_partial` theorems prove them for all
texts between the scripts of `sourceScripts` and `targetScripts` whose own rules do not look across
the separator, if no vertical bar is used as a full stop (in the six sources where that matters) and,
for the conversions that look for Om as a word of its own, if some letter of Om is missing.
-/

namespace Verif

theorem sampleEnv_lineOps : sampleEnv.LineOps where
  plain := by rintro z (rfl | rfl) <;> decide
  split := by
    intro z _ h _ a b a' b' ha hb
    cases ha
    cases hb
    rfl
  nfc := by intro c _ s s' h hr; cases hr; exact h
  bar := by intro s s' h hr; cases hr; exact h

theorem omLetters_big : sourceScripts.all (fun S => (omLetters S).all fun c => Nat.ble 33 c) = true := by decide +kernel

theorem sep_small {S : PyStr} (hS : S ∈ sourceScripts) {z : Nat} (hz : z = newline ∨ z = blank) : z ∉ omLetters S := by
  intro hm
  have := Nat.le_of_ble_eq_true (List.all_eq_true.1 (List.all_eq_true.1 omLetters_big S hS) z hm)
  rcases hz with rfl | rfl <;> simp [newline, blank] at this

theorem mem_joinAt {z c : Nat} {l : List PyStr} (h : c ∈ joinAt z l) : c = z ∨ ∃ t ∈ l, c ∈ t := by
  induction l with
  | nil => cases h
  | cons a l ih =>
    cases l with
    | nil => exact .inr ⟨a, by simp, h⟩
    | cons b l =>
      rcases List.mem_append.1 h with h | h
      · exact .inr ⟨a, by simp, h⟩
      · rcases List.mem_cons.1 h with h | h
        · exact .inl h
        · rcases ih h with h | ⟨t, ht, hc⟩
          · exact .inl h
          · exact .inr ⟨t, by simp [List.mem_cons.1 ht], hc⟩

theorem lower_joinAt {E : Env} (hE : E.TextOps) (hL : E.LineOps) {z : Nat} (hz : z = newline ∨ z = blank) {c : Nat} (hc : c ≠ z)
    {l : List PyStr} (h0 : l ≠ []) (h : ∀ t ∈ l, ∀ r, E.host .lower t = .ok r → c ∉ r) {r : PyStr}
    (hr : E.host .lower (joinAt z l) = .ok r) : c ∉ r := by
  induction l generalizing r with
  | nil => exact absurd rfl h0
  | cons a l ih =>
    cases l with
    | nil => exact h a (by simp) r hr
    | cons b l =>
      obtain ⟨a', ha'⟩ := hE.total .lower rfl a
      obtain ⟨b', hb'⟩ := hE.total .lower rfl (joinAt z (b :: l))
      have := hL.split z hz .lower rfl _ _ _ _ ha' hb'
      rw [show a ++ z :: joinAt z (b :: l) = joinAt z (a :: b :: l) from rfl, hr] at this
      cases this
      intro hm
      rcases List.mem_append.1 hm with hm | hm
      · exact h a (by simp) a' ha' hm
      · rcases List.mem_cons.1 hm with hm | hm
        · exact hc hm
        · exact ih (by simp) (fun t ht => h t (List.mem_cons_of_mem _ ht)) hb' hm

/-- Ordinary post-options, spelt as listed: `process` is `convert`. -/
theorem process_postOptions {E : Env} (hE : E.TextOps) {S T : PyStr} (hS : S ∈ sourceScripts) (hT : T ∈ targetScripts)
    (nat : Bool) {post : List PyStr} (hpost : ∀ o ∈ post, o ∈ names postFns ∧ o ∉ specialPost) (text : PyStr) :
    process E S T text nat post [] (u! "default") = ((convert S T nat [] post).prog.run E text).map some := by
  have ha : strEq S (u! "autodetect") = false := by
    rw [strEq_false]
    rintro rfl
    revert hS
    rw [← strMem_iff]
    decide +kernel
  show (processDefault E S T text nat post []).map some = _
  simp only [processDefault, ha, resolveName_listed hE (src_listed (src_plain hS)),
    resolveName_listed hE (tgt_listed (tgt_plain hT)), convertDefault,
    matchOptions_alone hE alone_pre (os := []) (fun _ h => by cases h), matchOptions_alone hE alone_post hpost]

theorem joined_parts {E : Env} (hE : E.TextOps) (hL : E.LineOps) {z : Nat} (hz : z = newline ∨ z = blank)
    {S T : PyStr} (hS : S ∈ sourceScripts) (hT : T ∈ targetScripts) (nat : Bool) (post : List PyStr)
    (hne : S ≠ T ∨ (nat = false ∧ post = []))
    (cS : S ∉ crossSources z) (cT : T ∉ crossTargets z)
    (hpost : ∀ o ∈ post, o ∈ names postFns ∧ o ∉ specialPost ∧ o ∉ crossOptions z)
    {parts : List PyStr} (h0 : parts ≠ []) (hB : NoBar S parts) (hO : seeksOm S T → NoOm E S parts)
    (f : PyStr → PyStr) (hf : ∀ t ∈ parts, process E S T t nat post [] (u! "default") = .ok (some (f t))) :
    process E S T (joinAt z parts) nat post [] (u! "default") = .ok (some (joinAt z (parts.map f))) := by
  have back : ∀ {t r}, process E S T t nat post [] (u! "default") = .ok (some r) ↔ (convert S T nat [] post).prog.run E t = .ok r := by
    intro t r
    rw [process_postOptions hE hS hT nat fun o ho => ⟨(hpost o ho).1, (hpost o ho).2.1⟩]
    cases (convert S T nat [] post).prog.run E t with
    | ok s => simp [Except.map]
    | error e => simp [Except.map]
  by_cases heq : S = T
  · subst heq
    obtain ⟨hn, hp⟩ := hne.resolve_left fun h => h rfl
    subst hn hp
    have hid : ∀ t ∈ parts, f t = t := by
      intro t ht
      have := back.1 (hf t ht)
      rw [convert_same_run hS] at this
      exact (Except.ok.inj this).symm
    rw [show parts.map f = parts from (List.map_congr_left hid).trans (List.map_id'' (fun _ => rfl) parts)]
    exact back.2 (convert_same_run hS E _)
  have hne := heq
  induction parts with
  | nil => exact absurd rfl h0
  | cons a l ih =>
    cases l with
    | nil => exact hf a (by simp)
    | cons b l =>
      have h1 := ih (by simp) (fun h t ht => hB h t (List.mem_cons_of_mem _ ht))
        (fun h => by
          obtain ⟨c, hc, hct⟩ := hO h
          exact ⟨c, hc, fun t ht => hct t (List.mem_cons_of_mem _ ht)⟩)
        (fun t ht => hf t (List.mem_cons_of_mem _ ht))
      refine back.2 ?_
      refine convert_apart hE hL hz hS hT hne cS cT (fun o ho => (hpost o ho).2.1) (options_apart hz hpost) (texts := [a, joinAt z (b :: l)]) ?_ ?_ (by simp) (by simp)
        (back.1 (hf a (by simp))) (back.1 h1)
      · intro hp t ht hm
        simp only [List.mem_cons, List.not_mem_nil, or_false] at ht
        rcases ht with rfl | rfl
        · exact hB hp t (by simp) hm
        · rcases mem_joinAt hm with hm | ⟨t, ht, hm⟩
          · rcases hz with rfl | rfl <;> cases hm
          · exact hB hp t (List.mem_cons_of_mem _ ht) hm
      · intro hs
        obtain ⟨c, hc, hct⟩ := hO hs
        have hcz : c ≠ z := by rintro rfl; exact sep_small hS hz hc
        refine ⟨c, hc, fun t ht => ?_⟩
        simp only [List.mem_cons, List.not_mem_nil, or_false] at ht
        rcases ht with rfl | rfl
        · exact hct t (by simp)
        · refine ⟨fun hm => ?_, fun r hr => lower_joinAt hE hL hz hcz (by simp)
            (fun t ht => (hct t (List.mem_cons_of_mem _ ht)).2) hr⟩
          rcases mem_joinAt hm with hm | ⟨t, ht, hm⟩
          · exact hcz hm
          · exact (hct t (List.mem_cons_of_mem _ ht)).1 hm

/-- **C49**: a text is converted line by line: the conversion of `"\n".join(lines)` is
`"\n".join(f(line) for line in lines)`, where `f` converts one line.
Any number of post-options may be given, if they are ordinary ones (`specialPost`) and do not look
across the line themselves (`crossOptions`).
Missing from the full claim: pre-options and other post-options, a script converted to itself with
nativisation or options, the pairs with a script of `crossSources` or `crossTargets`, the
scripts treated specially, and the texts excluded by `NoBar` and `NoOm` (for all of these, see the
`_violated` theorems). -/
theorem C49_line_by_line_partial {E : Env} (hE : E.TextOps) (hL : E.LineOps)
    {S T : PyStr} (hS : S ∈ sourceScripts) (hT : T ∈ targetScripts) (nat : Bool) (post : List PyStr)
    (hne : S ≠ T ∨ (nat = false ∧ post = []))
    (cS : S ∉ crossSources newline) (cT : T ∉ crossTargets newline)
    (hpost : ∀ o ∈ post, o ∈ names postFns ∧ o ∉ specialPost ∧ o ∉ crossOptions newline)
    {lines : List PyStr} (h0 : lines ≠ []) (hB : NoBar S lines) (hO : seeksOm S T → NoOm E S lines)
    (f : PyStr → PyStr) (hf : ∀ t ∈ lines, process E S T t nat post [] (u! "default") = .ok (some (f t))) :
    process E S T (joinAt newline lines) nat post [] (u! "default") = .ok (some (joinAt newline (lines.map f))) :=
  joined_parts hE hL (.inl rfl) hS hT nat post hne cS cT hpost h0 hB hO f hf

/-- **C50**: a text is converted word by word: the same around blanks. -/
theorem C50_word_by_word_partial {E : Env} (hE : E.TextOps) (hL : E.LineOps)
    {S T : PyStr} (hS : S ∈ sourceScripts) (hT : T ∈ targetScripts) (nat : Bool) (post : List PyStr)
    (hne : S ≠ T ∨ (nat = false ∧ post = []))
    (cS : S ∉ crossSources blank) (cT : T ∉ crossTargets blank)
    (hpost : ∀ o ∈ post, o ∈ names postFns ∧ o ∉ specialPost ∧ o ∉ crossOptions blank)
    {words : List PyStr} (h0 : words ≠ []) (hB : NoBar S words) (hO : seeksOm S T → NoOm E S words)
    (f : PyStr → PyStr) (hf : ∀ t ∈ words, process E S T t nat post [] (u! "default") = .ok (some (f t))) :
    process E S T (joinAt blank words) nat post [] (u! "default") = .ok (some (joinAt blank (words.map f))) :=
  joined_parts hE hL (.inr rfl) hS hT nat post hne cS cT hpost h0 hB hO f hf

/-- Hypotheses that can be met: Telugu to Bengali, a text without the letter O. -/
example : process sampleEnv (u! "Telugu") (u! "Bengali") (joinAt newline [u! "రామ", u! "సీతా"]) false [] [] (u! "default")
    = .ok (some (joinAt newline [u! "রাম", u! "সীতা"])) :=
  C49_line_by_line_partial sampleEnv_textOps sampleEnv_lineOps (strMem_iff.1 (by decide +kernel)) (strMem_iff.1 (by decide +kernel))
    false [] (.inl (by decide)) (strMem_false.1 (by decide +kernel)) (strMem_false.1 (by decide +kernel)) (fun _ h => by cases h) (by simp)
    (fun h => absurd (strMem_iff.2 h) (by decide +kernel))
    (fun _ => ⟨0x0C13, natMem_iff.1 (by decide +kernel), by
      intro t ht
      simp only [List.mem_cons, List.not_mem_nil, or_false] at ht
      rcases ht with rfl | rfl
      · exact ⟨by decide, fun l hl => by cases hl; decide⟩
      · exact ⟨by decide, fun l hl => by cases hl; decide⟩⟩)
    (fun t => match strEq t (u! "రామ") with
      | true => u! "রাম"
      | false => u! "সীতা") (by
      intro t ht
      simp only [List.mem_cons, List.not_mem_nil, or_false] at ht
      rcases ht with rfl | rfl <;> decide +kernel)

/-- No condition on the text from Devanagari, whose Om is one character. -/
example (E : Env) (hE : E.TextOps) (hL : E.LineOps) (a b a' b' : PyStr) (nat : Bool) (h : a ≠ b)
    (ha : process E (u! "Devanagari") (u! "Telugu") a nat [] [] (u! "default") = .ok (some a'))
    (hb : process E (u! "Devanagari") (u! "Telugu") b nat [] [] (u! "default") = .ok (some b')) :
    process E (u! "Devanagari") (u! "Telugu") (a ++ blank :: b) nat [] [] (u! "default") = .ok (some (a' ++ blank :: b')) := by
  have := C50_word_by_word_partial hE hL (S := u! "Devanagari") (T := u! "Telugu") (words := [a, b]) (strMem_iff.1 (by decide +kernel)) (strMem_iff.1 (by decide +kernel))
    nat [] (.inl (by decide)) (strMem_false.1 (by decide +kernel)) (strMem_false.1 (by decide +kernel)) (fun _ h => by cases h) (by simp)
    (fun h => absurd (strMem_iff.2 h) (by decide +kernel))
    (fun hs => by
      rcases hs.2 with h | h
      · exact absurd (strMem_iff.2 h) (by decide +kernel)
      · exact absurd (by decide +kernel) h)
    (fun t => match strEq t a with
      | true => a'
      | false => b') (by
      intro t ht
      simp only [List.mem_cons, List.not_mem_nil, or_false] at ht
      rcases ht with rfl | rfl
      · rw [show strEq t t = true from strEq_iff.2 rfl]; exact ha
      · rw [strEq_false.2 (Ne.symm h)]; exact hb)
  simpa [joinAt, show strEq a a = true from strEq_iff.2 rfl, strEq_false.2 (Ne.symm h)] using this

/-- Most post-options can be given. -/
example : (us!["TamilSubScript", "DevanagariAnusvara", "mDotAboveToBelow"].all fun o => strMem o (names postFns) &&
      !strMem o specialPost && !strMem o (crossOptions newline) && !strMem o (crossOptions blank)) = true ∧
    (postFns.filter fun p => !strMem p.1 specialPost && !strMem p.1 (crossOptions newline)).length = 274 ∧
    (postFns.filter fun p => !strMem p.1 specialPost && !strMem p.1 (crossOptions blank)).length = 256 := by
  decide +kernel

/-! ## Why the conditions -/

/-- The same two lines, converted together and one by one, differ (no options). -/
def differs (S T : PyStr) (z : Nat) (a b : PyStr) : Prop :=
  ∃ a' b' r, process sampleEnv S T a false [] [] (u! "default") = .ok (some a') ∧
    process sampleEnv S T b false [] [] (u! "default") = .ok (some b') ∧
    process sampleEnv S T (a ++ z :: b) false [] [] (u! "default") = .ok (some r) ∧ r ≠ a' ++ z :: b'

/-- Two Om in a row: the second is not recognised (Convert.py:188-191). -/
theorem C49_two_om_violated : differs (u! "Kannada") (u! "Devanagari") newline (u! "ಅ ಓಂ") (u! "ಓಂ ಅ") :=
  ⟨u! "अ ॐ", u! "ॐ अ", u! "अ ॐ\nओं अ", by decide +kernel, by decide +kernel, by decide +kernel, by decide⟩

/-- One vertical bar anywhere changes what a dot means everywhere (PreProcess.py:66-74). -/
theorem C49_bar_violated : differs (u! "HK") (u! "Devanagari") newline (u! "azva.") (u! "azva|") :=
  ⟨u! "अश्व।", u! "अश्व।", u! "अश्व.\nअश्व।", by decide +kernel, by decide +kernel, by decide +kernel, by decide⟩

/-- A virama at the end of a line and a nukta at the beginning of the next (ConvertFix.py, `FixKannada`). -/
theorem C49_cross_violated : differs (u! "Devanagari") (u! "Kannada") newline (u! "क्") (u! "़क") :=
  ⟨u! "ಕ್", u! "಼ಕ", u! "ಕ್‌\n಼ಕ", by decide +kernel, by decide +kernel, by decide +kernel, by decide⟩

theorem C50_two_om_violated : differs (u! "Kannada") (u! "Devanagari") blank (u! "ಅ ಓಂ") (u! "ಓಂ ಅ") :=
  ⟨u! "अ ॐ", u! "ॐ अ", u! "अ ॐ ओं अ", by decide +kernel, by decide +kernel, by decide +kernel, by decide⟩

/-- Tibetan writes a dot between words (ConvertFix.py, `FixTibetan`). -/
theorem C50_cross_violated : differs (u! "Devanagari") (u! "Tibetan") blank (u! "अ") (u! "अ") :=
  ⟨u! "ཨ", u! "ཨ", u! "ཨ་ཨ", by decide +kernel, by decide +kernel, by decide +kernel, by decide⟩

end Verif
