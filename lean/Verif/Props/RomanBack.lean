import Verif.Lib.ReadTable
import Verif.Props.Roman

/-!
# C17, C44: romanised text is read back

`readTable` (`Verif.Spec.RomanTable`) lists nine romanisations; `Readable` (`Verif.Spec.Roman`) says
which texts have a romanised spelling that can be read in one way only.  `Env.KeepsSpelt` is what is
assumed of `str.lower` and of `unicodedata.normalize("NFC", ...)`.
-/

namespace Verif

theorem readTable_roman : ∀ r ∈ readTable, r ∈ romanTable := by
  unfold readTable romanTable
  intro r hr
  simp only [List.mem_cons, List.not_mem_nil, or_false] at hr ⊢
  rcases hr with rfl | rfl | rfl | rfl | rfl | rfl | rfl | rfl | rfl <;> simp

/-- Romanised text is read letter by letter: the spelling of a text of one Indic script, converted
to another, gives the text in the letters of that script. -/
theorem C44_spelling_is_read (E : Env) (hE : E.TextOps) (e : CoreEntry) (he : e ∈ coreTable) (e' : CoreEntry)
    (he' : e' ∈ coreTable) (r : RomanEntry) (hr : r ∈ readTable) (hK : E.KeepsSpelt r) (s : PyStr) (hs : Readable e r s)
    (hs' : CoreText e' (respell e.script e'.script s)) (nativize : Bool)
    (hn : nativize = true → NativeText e' (respell e.script e'.script s)) :
    process E r.script e'.script (r.write (romanise e.script r.script s)) nativize [] [] (u! "default") =
      .ok (some (respell e.script e'.script s)) := by
  obtain ⟨fS⟩ := facts he
  obtain ⟨fT⟩ := facts he'
  have F := readFacts_of hr
  obtain ⟨x, hx⟩ := C09_no_exception E hE _ _ F.src fT.tgt (r.write (romanise e.script r.script s)) nativize
  rw [hx]
  rw [process_plain hE F.src fT.tgt] at hx
  cases hc : (convert r.script e'.script nativize [] []).prog.run E (r.write (romanise e.script r.script s)) with
  | error y => rw [hc] at hx; cases hx
  | ok t =>
    rw [hc] at hx
    cases hx
    obtain ⟨h1, h2⟩ := readTargets_all e' he'
    rw [read_convert fS.toLetterFacts fT h1 h2 F hK hs (omStill_of (readOmOk_all r hr) F.macrons hs) hs' hn hc]

/-- An Indic text comes back from its romanisation. -/
theorem C17_there_and_back (E : Env) (hE : E.TextOps) (e : CoreEntry) (he : e ∈ coreTable) (r : RomanEntry)
    (hr : r ∈ readTable) (ha : Apt e.script r.script) (hK : E.KeepsSpelt r) (s : PyStr) (hs : Readable e r s)
    (nativize nativize' : Bool) (hn : nativize' = true → NativeText e s) :
    ∃ t, process E e.script r.script s nativize [] [] (u! "default") = .ok (some t) ∧
      process E r.script e.script t nativize' [] [] (u! "default") = .ok (some s) := by
  obtain ⟨fS⟩ := facts he
  have hself := respell_self fS.tbl s
  refine ⟨_, C43_syllable_by_syllable E hE e he r (readTable_roman r hr) ha s hs.toRomanText nativize, ?_⟩
  have := C44_spelling_is_read E hE e he e he r hr hK s hs (by rw [hself]; exact hs.core) nativize' (by rw [hself]; exact hn)
  rwa [hself] at this

/-- The detour through a romanisation: the result is the one without. -/
theorem C44_detour (E : Env) (hE : E.TextOps) (e : CoreEntry) (he : e ∈ coreTable) (e' : CoreEntry)
    (he' : e' ∈ coreTable) (hne : e.script ≠ e'.script) (hA : Agree e.script e'.script)
    (r : RomanEntry) (hr : r ∈ readTable) (ha : Apt e.script r.script) (hK : E.KeepsSpelt r) (s : PyStr)
    (hs : Readable e r s) (hs' : CoreText e' (respell e.script e'.script s)) (nativize nativize' : Bool)
    (hn : nativize' = true → NativeText e' (respell e.script e'.script s)) :
    ∃ t, process E e.script r.script s nativize [] [] (u! "default") = .ok (some t) ∧
      process E r.script e'.script t nativize' [] [] (u! "default") =
        process E e.script e'.script s nativize' [] [] (u! "default") := by
  refine ⟨_, C43_syllable_by_syllable E hE e he r (readTable_roman r hr) ha s hs.toRomanText nativize, ?_⟩
  rw [C44_spelling_is_read E hE e he e' he' r hr hK s hs hs' nativize' hn]
  exact (C15_letter_by_letter E hE e e' he he' hne hA s ⟨hs.core, hs'⟩ nativize' hn).symm

/-- Different texts are spelled differently. -/
theorem C17_injective (E : Env) (hE : E.TextOps) (e : CoreEntry) (he : e ∈ coreTable) (r : RomanEntry)
    (hr : r ∈ readTable) (ha : Apt e.script r.script) (hK : E.KeepsSpelt r) (s t : PyStr) (hs : Readable e r s)
    (ht : Readable e r t) (nativize : Bool)
    (h : process E e.script r.script s nativize [] [] (u! "default") = process E e.script r.script t nativize [] [] (u! "default")) :
    s = t := by
  obtain ⟨x, hx, hx'⟩ := C17_there_and_back E hE e he r hr ha hK s hs nativize false (by simp)
  obtain ⟨y, hy, hy'⟩ := C17_there_and_back E hE e he r hr ha hK t ht nativize false (by simp)
  rw [hx, hy] at h
  cases h
  rw [hx'] at hy'
  cases hy'
  rfl

/-! ## Readable texts -/

/-- Decides `Apart`. -/
def isApart (K : List PyStr) : List PyStr → Bool
  | p :: q :: P => (match p.getLast?, q.head? with
    | some x, some y => K.all fun k => !(isInfix [x, y] k)
    | _, _ => true) && isApart K (q :: P)
  | _ => true

theorem isApart_sound {K P : List PyStr} (h : isApart K P = true) : Apart K P := by
  induction P with
  | nil => intro p q hi; simp at hi
  | cons p P ih =>
    cases P with
    | nil => intro a b hi; have := hi.length_le; simp at this
    | cons q P =>
      simp only [isApart, Bool.and_eq_true] at h
      intro a b hi
      rcases List.infix_cons_iff.1 hi with hi | hi
      · obtain ⟨w, hw⟩ := hi
        simp only [List.cons_append, List.nil_append, List.cons.injEq] at hw
        obtain ⟨rfl, rfl, -⟩ := hw
        intro x hx y hy k hk hi
        have h1 := h.1
        rw [Option.mem_def] at hx hy
        rw [hx, hy] at h1
        have := List.all_eq_true.1 h1 k hk
        rw [isInfix_iff.2 hi] at this; cases this
      · exact ih h.2 a b hi

/-- Decides where `_` may stand. -/
def isShort (i u : PyStr) : List PyStr → Bool
  | p :: q :: P => (!(strEq p (u! "_")) || (strEq q i || strEq q u)) && isShort i u (q :: P)
  | _ => true

theorem isShort_sound {i u : PyStr} {P : List PyStr} (h : isShort i u P = true) :
    ∀ y, [u! "_", y] <:+: P → y = i ∨ y = u := by
  induction P with
  | nil => intro y hi; simp at hi
  | cons p P ih =>
    cases P with
    | nil => intro b hi; have := hi.length_le; simp at this
    | cons q P =>
      simp only [isShort, Bool.and_eq_true] at h
      intro b hi
      rcases List.infix_cons_iff.1 hi with hi | hi
      · obtain ⟨w, hw⟩ := hi
        simp only [List.cons_append, List.nil_append, List.cons.injEq] at hw
        obtain ⟨rfl, rfl, -⟩ := hw
        have h1 := h.1
        rw [strEq_iff.2 rfl] at h1
        simp only [Bool.not_true, Bool.false_or, Bool.or_eq_true] at h1
        exact h1.imp strEq_iff.1 strEq_iff.1
      · exact ih h.2 b hi

/-- Decides `Readable`. -/
def isReadable (e : CoreEntry) (r : RomanEntry) (s : PyStr) : Bool :=
  isRoman e r s && isApart (romanLetters r.script) (romanPieces r.script (sounds e.script r.script s)) &&
  isShort (letterAt r.script .VowelMap 2) (letterAt r.script .VowelMap 4) (romanPieces r.script (sounds e.script r.script s)) &&
  (sounds e.script r.script s).all (fun x => match x with | .mark y => !(strMem y r.conss) | _ => true) &&
  (romanise e.script r.script s).all (fun c => !(natMem c r.oneWay)) &&
  (romanCodes r.script).all fun f => !(isInfix f (romanise e.script r.script s))

theorem isReadable_sound {e : CoreEntry} {r : RomanEntry} {s : PyStr} (h : isReadable e r s = true) : Readable e r s := by
  simp only [isReadable, Bool.and_eq_true, List.all_eq_true, Bool.not_eq_true'] at h
  obtain ⟨⟨⟨⟨⟨h1, h2⟩, h3⟩, h4⟩, h5⟩, h6⟩ := h
  refine ⟨isRoman_sound h1, isApart_sound h2, isShort_sound h3, fun y hy => ?_, fun c hc => ?_, fun f hf hi => ?_⟩
  · exact strMem_false.1 ((Bool.not_eq_true' _) ▸ h4 _ hy)
  · exact natMem_false (h5 c hc)
  · have := h6 f hf
    rw [isInfix_iff.2 hi] at this; cases this

/-- The text operations of the sample environment change nothing. -/
theorem sampleEnv_keeps (r : RomanEntry) : sampleEnv.KeepsSpelt r := by
  intro _ t _ x _
  exact ⟨rfl, rfl⟩

/-- The beginning of the Gita, and words with neighbouring vowels. -/
def gitaRead : PyStr := u! "धर्मक्षेत्रे कुरुक्षेत्रे समवेताः (१२), कइ प्रउग अउ संस्कृतम् 中文\nॠतौ"

example : Readable coreDevanagari romanIAST gitaRead ∧ Readable coreDevanagari romanISO gitaRead ∧
    Readable coreDevanagari romanHK gitaRead ∧ Readable coreDevanagari romanSLP1 gitaRead ∧
    Readable coreDevanagari romanIAST (u! "संस्कृतम् 中文") ∧ SharedText coreDevanagari coreTelugu (u! "संस्कृतम् 中文") :=
  ⟨isReadable_sound (by decide +kernel), isReadable_sound (by decide +kernel), isReadable_sound (by decide +kernel),
    isReadable_sound (by decide +kernel), isReadable_sound (by decide +kernel),
    isCore_sound (by decide +kernel), isCore_sound (by decide +kernel)⟩

/-- Readable texts of any length. -/
example (n : Nat) : Readable coreDevanagari romanIAST (List.replicate n 0x915) := by
  have hs : sounds coreDevanagari.script romanIAST.script (List.replicate n 0x915) = List.replicate n (.cons (u! "k")) := by
    unfold sounds
    rw [List.map_replicate]
    congr 1
  have hp : romanPieces romanIAST.script (List.replicate n (.cons (u! "k"))) = (List.replicate n [u! "k", u! "a"]).flatten := by
    clear hs
    induction n with
    | zero => rfl
    | succ n ih =>
      rw [List.replicate_succ, List.replicate_succ, romanPieces, ih, List.flatten_cons]
      cases n <;> rfl
  have hm : ∀ p ∈ romanPieces romanIAST.script (List.replicate n (.cons (u! "k"))), p = u! "k" ∨ p = u! "a" := by
    intro p h
    rw [hp] at h
    obtain ⟨l, hl, h⟩ := List.mem_flatten.1 h
    rw [List.eq_of_mem_replicate hl] at h
    simpa using h
  have hc : ∀ c ∈ romanise coreDevanagari.script romanIAST.script (List.replicate n 0x915), c = 107 ∨ c = 97 := by
    intro c h
    unfold romanise at h
    rw [hs] at h
    obtain ⟨p, hp, h⟩ := List.mem_flatten.1 h
    rcases hm p hp with rfl | rfl
    · exact .inl (List.mem_singleton.1 h)
    · exact .inr (List.mem_singleton.1 h)
  refine ⟨romanText_ka n, ?_, ?_, ?_, ?_, ?_⟩
  · intro p q hi x hx y hy k hk hi'
    rw [hs] at hi
    have key : (romanLetters romanIAST.script).all (fun k => !(isInfix (u! "ka") k) && !(isInfix (u! "ak") k) &&
      !(isInfix (u! "kk") k) && !(isInfix (u! "aa") k)) = true := by decide +kernel
    have hk := List.all_eq_true.1 key k hk
    simp only [Bool.and_eq_true, Bool.not_eq_true'] at hk
    obtain ⟨⟨⟨k1, k2⟩, k3⟩, k4⟩ := hk
    have hi'' := isInfix_iff.2 hi'
    rcases hm p (hi.subset (by simp)) with rfl | rfl <;> rcases hm q (hi.subset (by simp)) with rfl | rfl <;>
      cases hx <;> cases hy
    · exact absurd ((show isInfix (u! "kk") k = true from hi'').symm.trans k3) (by simp)
    · exact absurd ((show isInfix (u! "ka") k = true from hi'').symm.trans k1) (by simp)
    · exact absurd ((show isInfix (u! "ak") k = true from hi'').symm.trans k2) (by simp)
    · exact absurd ((show isInfix (u! "aa") k = true from hi'').symm.trans k4) (by simp)
  · intro y hi
    rw [hs] at hi
    rcases hm (u! "_") (hi.subset (by simp)) with h | h <;> exact absurd h (by decide)
  · intro y hy
    rw [hs] at hy
    exact absurd (List.eq_of_mem_replicate hy) (by simp)
  · intro c h
    rcases hc c h with rfl | rfl <;> decide
  · intro f hf hi
    have key : ∀ f ∈ romanCodes romanIAST.script, ∃ c ∈ f, c ≠ 107 ∧ c ≠ 97 := by decide +kernel
    obtain ⟨c, hcf, h1, h2⟩ := key f hf
    rcases hc c (hi.subset hcf) with h | h
    · exact h1 h
    · exact h2 h

/-! ## Where text does not come back -/

/-- A plosive joined to h: `_` keeps the letters apart, but reading leaves the marker U+1E7F. -/
theorem C17_aspirate_violated :
    process sampleEnv (u! "Devanagari") (u! "IAST") (u! "क्ह") false [] [] (u! "default") = .ok (some (u! "k_ha")) ∧
    process sampleEnv (u! "IAST") (u! "Devanagari") (u! "k_ha") false [] [] (u! "default") = .ok (some (u! "कṿह")) := by
  decide +kernel

/-- Letters that run together: l and the vowel ṛ read as the vowel ḷ in HK. -/
theorem C17_run_together_violated :
    process sampleEnv (u! "Devanagari") (u! "HK") (u! "लृ") false [] [] (u! "default") = .ok (some (u! "lR")) ∧
    process sampleEnv (u! "HK") (u! "Devanagari") (u! "lR") false [] [] (u! "default") = .ok (some (u! "ऌ")) := by
  decide +kernel

end Verif
