import Verif.Lib.Letterwise
import Verif.Lib.PlainUse
import Verif.Lib.Tables

/-!
# Core text is converted letter by letter
-/

namespace Verif

theorem countIn_eq_one {x : PyStr} {l : List PyStr} (h : countIn x l = 1) :
    ∃ a b, l = a ++ x :: b ∧ x ∉ a ∧ x ∉ b := by
  have zero : ∀ l : List PyStr, countIn x l = 0 → x ∉ l := by
    intro l
    induction l with
    | nil => intro _ h; cases h
    | cons y l ih =>
      intro h0 hm
      simp only [countIn] at h0
      cases hb : strEq x y with
      | true => rw [hb] at h0; cases h0
      | false =>
        rw [hb] at h0
        rcases List.mem_cons.1 hm with rfl | hm
        · rw [strEq_refl] at hb; cases hb
        · exact ih h0 hm
  induction l with
  | nil => cases h
  | cons y l ih =>
    simp only [countIn] at h
    cases hb : strEq x y with
    | true =>
      rw [hb] at h
      have := strEq_iff.1 hb
      subst this
      exact ⟨[], l, rfl, by simp, zero l (by simpa using h)⟩
    | false =>
      rw [hb] at h
      obtain ⟨a, b, h1, h2, h3⟩ := ih h
      refine ⟨y :: a, b, by rw [h1]; rfl, ?_, h3⟩
      intro hm
      rcases List.mem_cons.1 hm with rfl | hm
      · rw [strEq_refl] at hb; cases hb
      · exact h2 hm

theorem lettersOf_letterList (S : PyStr) : lettersOf S letterSecs = letterList S := by
  have : ∀ l, lettersOf S l = l.flatMap (modAttr S) := by
    intro l
    induction l with
    | nil => unfold lettersOf; cases tblOf S <;> rfl
    | cons a l ih => rw [lettersOf_cons, ih, List.flatMap_cons]
  exact this _

/-- What the checks of the letters of a script say. -/
structure LetterFacts (e : CoreEntry) where
  m : Nat
  tbl : hasTbl e.script = true
  mask : ∀ c ∈ e.letters, maskMem m c = true
  once : ∀ c ∈ e.letters, countIn [c] (letterList e.script) = 1
  plain : ∀ c ∈ plainChars, c ∉ e.notPlain → maskMem m c = true
  fine : ∀ x ∈ letterList e.script, letterFine (mixSet m) e.forbid e.letters x = true

/-- What the checks of a script say. -/
structure CoreFacts (e : CoreEntry) extends LetterFacts e where
  mn : Nat
  src : e.script ∈ sourceScripts
  tgt : e.script ∈ targetScripts
  indic : e.script ∈ GM.IndicScripts
  pre : sameForPre e.script (u! "Devanagari") = true ∨ sameForPre e.script (u! "Tamil") = true
  nLetters : ∀ c ∈ e.letters, c ∉ e.natDrop → maskMem mn c = true
  nPlain : ∀ c ∈ plainChars, c ∉ e.natDrop → c ∉ e.notPlain → maskMem mn c = true
  preD : (PreProcess.PreProcess e.script (u! "Devanagari") [] []).prog.idle (mixSet m) e.forbid = true
  preT : (PreProcess.PreProcess e.script (u! "Tamil") [] []).prog.idle (mixSet m) e.forbid = true
  pfx : (prefixII e.script).prog.idle (mixSet m) e.forbid = true
  om : omIdle (mixSet m) e.forbid (lettersOf e.script GM.Signs) (headSec .OmMap e.script) = true
  fin : (endII e.script).prog.idle (mixSet m) e.forbid = true
  finF : (finishT e.script false).prog.idle (mixSet m) e.forbid = true
  finT : [] ∈ e.natForbid ∨ (finishT e.script true).prog.idle (mixSet mn) (e.forbid ++ e.natForbid) = true
  apart : ∀ c ∈ e.letters, isNeutral c = false ∧ c ∉ plainChars

theorem coreFacts {e : CoreEntry} (h : coreOk e = true) : Nonempty (CoreFacts e) := by
  unfold coreOk at h
  rw [withNat_eq, withNat_eq] at h
  unfold coreOkAt at h
  simp only [Bool.and_eq_true, Bool.or_eq_true, List.all_eq_true, Nat.beq_eq, natMem_iff, strMem_iff,
    Bool.not_eq_true', neuMem_eq] at h
  obtain ⟨⟨⟨⟨⟨⟨⟨⟨⟨⟨⟨⟨⟨⟨⟨⟨h1, h2⟩, h3⟩, h4⟩, h5⟩, h6⟩, h7⟩, h8⟩, h9⟩, h10⟩, h11⟩, h12⟩, h13⟩, h14⟩, h15⟩, h16⟩, h17⟩ := h
  exact ⟨⟨⟨_, hasTbl_of_mem (List.mem_append_left _ h3) (romanLoC_notIndic h3), fun c hc => (h5 c hc).1,
      fun c hc => lettersOf_letterList e.script ▸ (h5 c hc).2,
      fun c hc hn => (h6 c hc).resolve_left hn,
      fun x hx => h9 x (lettersOf_letterList e.script ▸ hx)⟩,
    _, h1, h2, h3, h4,
    fun c hc hn => (h7 c hc).resolve_left hn,
    fun c hc hn hp => ((h8 c hc).resolve_right hp).resolve_left hn,
    h10, h11, h12, h13, h14, h15, h16,
    fun c hc => ⟨(h17 c hc).1, fun hm => by have := (h17 c hc).2; rw [natMem_iff.2 hm] at this; cases this⟩⟩⟩

namespace LetterFacts

variable {e : CoreEntry} (f : LetterFacts e)
include f

theorem inCore {s : PyStr} (h : CoreText e s) : InCore (mixSet f.m) e.forbid s := by
  refine ⟨fun c hc => ?_, h.free⟩
  show (match maskMem f.m c with | true => true | false => neuMem c) = true
  rcases h.chars c hc with h1 | h1 | h1
  · rw [f.mask c h1]
  · rw [f.plain c h1.1 h1.2]
  · rw [neuMem_eq, h1]; split <;> rfl

/-- A letter that occurs in core text is a core letter. -/
theorem letter_in_core {s x : PyStr} (h : CoreText e s) (hx : x ∈ letterList e.script) (hi : x <:+: s) :
    ∃ c ∈ e.letters, x = [c] := by
  have hf := f.fine x hx
  match x, hf with
  | [d], hf =>
    simp only [letterFine] at hf
    have := (f.inCore h).1 d (hi.subset (by simp))
    rw [this] at hf
    exact ⟨d, natMem_iff.1 hf, rfl⟩
  | a :: b :: x, hf =>
    exact absurd hi (dead_sound hf (f.inCore h))

theorem letter_ne_nil {x : PyStr} (hx : x ∈ letterList e.script) : x ≠ [] := by
  rintro rfl
  have := f.fine [] hx
  simp [letterFine] at this

end LetterFacts

namespace CoreFacts

variable {e : CoreEntry} (f : CoreFacts e)
include f

theorem inCoreN {s : PyStr} (h : CoreText e s) (hn : NativeText e s) :
    InCore (mixSet f.mn) (e.forbid ++ e.natForbid) s := by
  refine ⟨fun c hc => ?_, fun g hg => ?_⟩
  · show (match maskMem f.mn c with | true => true | false => neuMem c) = true
    have hd := hn.chars c hc
    rcases h.chars c hc with h1 | h1 | h1
    · rw [f.nLetters c h1 hd]
    · rw [f.nPlain c h1.1 hd h1.2]
    · rw [neuMem_eq, h1]; split <;> rfl
  · rcases List.mem_append.1 hg with h1 | h1
    · exact h.free g h1
    · exact hn.free g h1

theorem hasTbl : Verif.hasTbl e.script = true := f.tbl

end CoreFacts

theorem zip_letterList {S T : PyStr} (hS : hasTbl S = true) (hT : hasTbl T = true) :
    rules letterSecs plain plain S T = (letterList S).zip (letterList T) := by
  rw [rules_plain, ← lettersOf_letterList, ← lettersOf_letterList, zip_lettersOf hS hT]

theorem letterList_length {S T : PyStr} (hS : hasTbl S = true) (hT : hasTbl T = true) :
    (letterList S).length = (letterList T).length := by
  unfold letterList
  induction letterSecs with
  | nil => rfl
  | cons a l ih => simp only [List.flatMap_cons, List.length_append, ih, modAttr_length hS hT a]

theorem zip_mem_left {α β : Type} {l : List α} {m : List β} {p : α × β} (h : p ∈ l.zip m) : p.1 ∈ l :=
  (List.of_mem_zip h).1

/-- If the letter occurs once, its partner in the list of pairs is unique. -/
theorem zip_unique {x : PyStr} {l m : List PyStr} (h : countIn x l = 1) {y y' : PyStr} (h1 : (x, y) ∈ l.zip m)
    (h2 : (x, y') ∈ l.zip m) : y = y' := by
  obtain ⟨a, b, rfl, ha, hb⟩ := countIn_eq_one h
  clear h
  induction a generalizing m with
  | nil =>
    cases m with
    | nil => cases h1
    | cons w m =>
      have key : ∀ z, (x, z) ∈ ([] ++ x :: b).zip (w :: m) → z = w := by
        intro z hz
        rw [List.nil_append, List.zip_cons_cons] at hz
        rcases List.mem_cons.1 hz with hz | hz
        · cases hz; rfl
        · exact absurd (zip_mem_left hz) hb
      rw [key y h1, key y' h2]
  | cons k a ih =>
    cases m with
    | nil => cases h1
    | cons w m =>
      have key : ∀ z, (x, z) ∈ (k :: a ++ x :: b).zip (w :: m) → (x, z) ∈ (a ++ x :: b).zip m := by
        intro z hz
        rw [List.cons_append, List.zip_cons_cons] at hz
        rcases List.mem_cons.1 hz with hz | hz
        · cases hz; exact absurd (List.mem_cons_self) ha
        · exact hz
      exact ih (key y h1) (key y' h2) (fun hm => ha (List.mem_cons_of_mem _ hm))

theorem image_of_pair {S T : PyStr} {c : Nat} {y : PyStr} (h1 : countIn [c] (letterList S) = 1)
    (hy : ([c], y) ∈ (letterList S).zip (letterList T)) : image S T c = y := by
  unfold image
  split
  · rename_i z hz; exact zip_unique h1 (lookup_mem hz) hy
  · rename_i hz; exact absurd rfl (lookup_none.1 hz _ hy)

theorem image_of_not {S T : PyStr} {c : Nat} (h : [c] ∉ letterList S) : image S T c = [c] := by
  unfold image
  split
  · rename_i z hz; exact absurd (zip_mem_left (lookup_mem hz)) h
  · rfl

theorem mem_zip_of_left {l m : List PyStr} (hl : l.length = m.length) {x : PyStr} (h : x ∈ l) :
    ∃ y, (x, y) ∈ l.zip m := by
  induction l generalizing m with
  | nil => cases h
  | cons a l ih =>
    cases m with
    | nil => cases hl
    | cons b m =>
      rcases List.mem_cons.1 h with rfl | h
      · exact ⟨b, by simp⟩
      · obtain ⟨y, hy⟩ := ih (by simpa using hl) h
        exact ⟨y, List.mem_cons_of_mem _ hy⟩

theorem image_infix {S T : PyStr} {c : Nat} {s : PyStr} (hc : c ∈ s) : image S T c <:+: respell S T s := by
  obtain ⟨a, b, rfl⟩ := List.append_of_mem hc
  refine ⟨respell S T a, respell S T b, ?_⟩
  simp [respell]

theorem char_infix {c : Nat} {s : PyStr} (hc : c ∈ s) : [c] <:+: s := by
  obtain ⟨a, b, rfl⟩ := List.append_of_mem hc
  exact ⟨a, b, by simp⟩

/-- The letter at the place of a core letter, if the respelled text is core text. -/
theorem image_core {eS eT : CoreEntry} (fS : LetterFacts eS) (fT : LetterFacts eT) {s : PyStr}
    (h' : CoreText eT (respell eS.script eT.script s)) {c : Nat} (hc : c ∈ s) (hl : c ∈ eS.letters) :
    ∃ d ∈ eT.letters, image eS.script eT.script c = [d] ∧ ([c], [d]) ∈ (letterList eS.script).zip (letterList eT.script) := by
  have hm : [c] ∈ letterList eS.script := by
    obtain ⟨a, b, hab, -⟩ := countIn_eq_one (fS.once c hl)
    rw [hab]; simp
  obtain ⟨y, hy⟩ := mem_zip_of_left (letterList_length fS.tbl fT.tbl) hm
  have hi := image_of_pair (fS.once c hl) hy
  obtain ⟨d, hd, rfl⟩ := fT.letter_in_core h' (List.of_mem_zip hy).2 (hi ▸ image_infix hc)
  exact ⟨d, hd, hi, hy⟩

/-- Rules that replace a letter by itself may be left out. -/
theorem applyRules_filter {L : List (PyStr × PyStr)} (h0 : ∀ p ∈ L, p.1 ≠ []) (s : PyStr) :
    applyRules L s = applyRules (L.filter fun p => !(strEq p.1 p.2)) s := by
  induction L generalizing s with
  | nil => rfl
  | cons p L ih =>
    have ih := ih fun q hq => h0 q (List.mem_cons_of_mem _ hq)
    show applyRules L (pyReplace s p.1 p.2) = _
    rw [List.filter_cons]
    split
    · exact ih _
    · rename_i he
      have he : p.1 = p.2 := strEq_iff.1 (by simpa using he)
      rw [← he, pyReplace_self (h0 p List.mem_cons_self)]
      exact ih s

theorem core_rules {eS eT : CoreEntry} (fS : LetterFacts eS) (fT : LetterFacts eT) (hA : Compatible eS.script eT) {s : PyStr}
    (h : CoreText eS s) (h' : CoreText eT (respell eS.script eT.script s)) :
    applyRules (pairsOf asIs asIs eS.script eT.script) s = respell eS.script eT.script s := by
  have hp := pairsOf_rules fS.tbl fT.tbl decOk_asIs decOk_asIs
  rw [zip_letterList fS.tbl fT.tbl] at hp
  have core : ∀ c ∈ s, [c] ∈ letterList eS.script → c ∈ eS.letters := by
    intro c hc hm
    obtain ⟨d, hd, he⟩ := fS.letter_in_core h hm (char_infix hc)
    cases he; exact hd
  have hid : ∀ p ∈ pairsOf asIs asIs eS.script eT.script, p.1 ≠ [] := fun p hp' => fS.letter_ne_nil (zip_mem_left (hp.mem_iff.1 hp'))
  rw [applyRules_filter hid, applyRules_letterwise (List.Pairwise.filter _ (pairsOf_sorted _ _ _ _))]
  · unfold respell
    refine flatMap_congr_mem ?_
    intro c hc
    unfold charImage
    split
    · rename_i y hy
      have hy := hp.mem_iff.1 (List.mem_filter.1 (lookup_mem hy)).1
      exact (image_of_pair (fS.once c (core c hc (zip_mem_left hy))) hy).symm
    · rename_i hy
      by_cases hm : [c] ∈ letterList eS.script
      · obtain ⟨y, hz⟩ := mem_zip_of_left (letterList_length fS.tbl fT.tbl) hm
        rw [image_of_pair (fS.once c (core c hc hm)) hz]
        cases he : strEq [c] y with
        | true => exact strEq_iff.1 he
        | false =>
          exact absurd rfl (lookup_none.1 hy _ (List.mem_filter.2 ⟨hp.mem_iff.2 hz, by simp [he]⟩))
      · exact (image_of_not hm).symm
  · intro p hp'
    exact hid p (List.mem_filter.1 hp').1
  · intro p hp' h2 hi
    obtain ⟨c, -, hc⟩ := fS.letter_in_core h (zip_mem_left (hp.mem_iff.1 (List.mem_filter.1 hp').1)) hi
    rw [hc] at h2
    simp at h2
  · intro c hc y hy d hd p hp' he
    have hz := hp.mem_iff.1 (List.mem_filter.1 hy).1
    have hl := core c hc (zip_mem_left hz)
    obtain ⟨d', hd', hi, -⟩ := image_core fS fT h' hc hl
    rw [image_of_pair (fS.once c hl) hz] at hi
    rw [hi, List.mem_singleton] at hd
    subst hd
    obtain ⟨hp1, hp2⟩ := List.mem_filter.1 hp'
    obtain ⟨p1, p2⟩ := p
    cases he
    rw [hA _ hd' p2 (hp.mem_iff.1 hp1)] at hp2
    simp [strEq_refl] at hp2

/-- A conversion of core text up to the rules of the target script. -/
theorem core_front {E : Env} {eS eT : CoreEntry} (fS : CoreFacts eS) (fT : LetterFacts eT)
    (tT : eT.script ∈ targetScripts) (iT : eT.script ∈ GM.IndicScripts)
    (pT : sameForPre eT.script (u! "Devanagari") = true ∨ sameForPre eT.script (u! "Tamil") = true)
    (hne : eS.script ≠ eT.script) (hA : Compatible eS.script eT) {nat : Bool} {s r : PyStr} (h : CoreText eS s)
    (h' : CoreText eT (respell eS.script eT.script s))
    (hr : (convert eS.script eT.script nat [] []).prog.run E s = .ok r) :
    ∃ s2, (endII eT.script).prog.run E (respell eS.script eT.script s) = .ok s2 ∧
      (finishT eT.script nat).prog.run E s2 = .ok r := by
  have htT := tgtFull_all (tgt_plain tT)
  unfold tgtFull at htT
  have hoS := hasHead_om fS.tbl
  have hoT := hasHead_om fT.tbl
  have hL : pyEq eT.script (u! "Latn") = false := by
    simp only [Bool.and_eq_true] at htT
    exact (tgtOk_tbl (by first | exact htT.1 | exact htT.1.1 | exact htT.1.1.1 | exact htT.1.1.1.1)).2.2.1
  rw [convert_plain (src_plain fS.src) (tgt_plain tT) hne,
    plainConvert_pieces fS.tbl fT.tbl hoS hoT hL (kindOf_mem_II fS.indic iT)] at hr
  obtain ⟨s1, r1, q1⟩ := run_seq (lin_preProcess _ _ _ _) hr
  have e1 : s1 = s := by
    rcases pT with hp | hp
    · rw [preProcess_tgt hp] at r1
      exact Prog.idle_sound fS.preD (fS.inCore h) r1
    · rw [preProcess_tgt hp] at r1
      exact Prog.idle_sound fS.preT (fS.inCore h) r1
  subst e1
  obtain ⟨s2, r2, q2⟩ := run_seq (lin_script _) q1
  obtain ⟨s3, r3, q3⟩ := run_seq (lin_prefixII _) r2
  have e3 := Prog.idle_sound fS.pfx (fS.inCore h) r3
  subst e3
  obtain ⟨s4, r4, q4⟩ := run_seq (lin_midII _ _) q3
  obtain ⟨s5, r5, q5⟩ := run_seq (lin_indicOm _ _ _) r4
  have e5 := omIdle_run fS.om (fS.inCore h) r5
  subst e5
  rw [run_replaceAll, core_rules fS.toLetterFacts fT hA h h'] at q5
  cases q5
  exact ⟨s2, q4, q2⟩

/-- The conversion of core text is the text letter by letter. -/
theorem core_convert {E : Env} {eS eT : CoreEntry} (fS : CoreFacts eS) (fT : CoreFacts eT)
    (hne : eS.script ≠ eT.script) (hA : Compatible eS.script eT) {nat : Bool} {s r : PyStr} (h : CoreText eS s)
    (h' : CoreText eT (respell eS.script eT.script s))
    (hn : nat = true → NativeText eT (respell eS.script eT.script s))
    (hr : (convert eS.script eT.script nat [] []).prog.run E s = .ok r) : r = respell eS.script eT.script s := by
  obtain ⟨s2, q4, q2⟩ := core_front fS fT.toLetterFacts fT.tgt fT.indic fT.pre hne hA h h' hr
  have e2 := Prog.idle_sound fT.fin (fT.inCore h') q4
  subst e2
  cases nat with
  | false => exact Prog.idle_sound fT.finF (fT.inCore h') q2
  | true =>
    rcases fT.finT with hf | hf
    · exact absurd (List.nil_infix) ((hn rfl).free [] hf)
    · exact Prog.idle_sound hf (fT.inCoreN h' (hn rfl)) q2

/-! ## There and back, and a detour -/

theorem countIn_index {x : PyStr} {l : List PyStr} (h : countIn x l = 1) {i j : Nat} (hi : l[i]? = some x)
    (hj : l[j]? = some x) : i = j := by
  obtain ⟨a, b, rfl, ha, hb⟩ := countIn_eq_one h
  have key : ∀ k, (a ++ x :: b)[k]? = some x → k = a.length := by
    intro k hk
    rcases Nat.lt_trichotomy k a.length with hl | hl | hl
    · rw [List.getElem?_append_left hl] at hk
      exact absurd (List.mem_of_getElem? hk) ha
    · exact hl
    · rw [List.getElem?_append_right (Nat.le_of_lt hl)] at hk
      obtain ⟨n, hn⟩ : ∃ n, k - a.length = n + 1 := ⟨k - a.length - 1, by omega⟩
      rw [hn, List.getElem?_cons_succ] at hk
      exact absurd (List.mem_of_getElem? hk) hb
  rw [key i hi, key j hj]

theorem mem_zip_index {l m : List PyStr} {x y : PyStr} :
    (x, y) ∈ l.zip m ↔ ∃ i : Nat, l[i]? = some x ∧ m[i]? = some y := by
  rw [List.mem_iff_getElem?]
  simp only [List.getElem?_zip_eq_some]

/-- Letters of the text and of its spelling correspond. -/
theorem shared_char {a b : CoreEntry} (fa : CoreFacts a) (fb : CoreFacts b) {s : PyStr} (h : SharedText a b s) {c : Nat}
    (hc : c ∈ s) : (c ∈ a.letters ∧ ∃ d ∈ b.letters, image a.script b.script c = [d] ∧
      ([c], [d]) ∈ (letterList a.script).zip (letterList b.script)) ∨
    (image a.script b.script c = [c] ∧ [c] ∉ letterList a.script ∧ [c] ∉ letterList b.script) := by
  by_cases hl : c ∈ a.letters
  · exact .inl ⟨hl, image_core fa.toLetterFacts fb.toLetterFacts h.target hc hl⟩
  · have ha : [c] ∉ letterList a.script := by
      intro hm
      obtain ⟨d, hd, he⟩ := fa.letter_in_core h.source hm (char_infix hc)
      cases he; exact hl hd
    refine .inr ⟨image_of_not ha, ha, fun hm => ?_⟩
    have hi : [c] <:+: respell a.script b.script s := image_of_not (T := b.script) ha ▸ image_infix hc
    obtain ⟨d, hd, he⟩ := fb.letter_in_core h.target hm hi
    cases he
    have hd := fb.apart c hd
    rcases h.source.chars c hc with h1 | h1 | h1
    · exact hl h1
    · exact hd.2 h1.1
    · rw [hd.1] at h1; cases h1

theorem respell_back {a b : CoreEntry} (fa : CoreFacts a) (fb : CoreFacts b) {s : PyStr} (h : SharedText a b s) :
    respell b.script a.script (respell a.script b.script s) = s := by
  have key : ∀ t, (∀ c ∈ t, c ∈ s) → respell b.script a.script (respell a.script b.script t) = t := by
    intro t
    induction t with
    | nil => intro _; rfl
    | cons c t ih =>
      intro ht
      have ih := ih fun x hx => ht x (List.mem_cons_of_mem _ hx)
      unfold respell at ih ⊢
      rw [List.flatMap_cons, List.flatMap_append, ih]
      have : (image a.script b.script c).flatMap (image b.script a.script) = [c] := by
        rcases shared_char fa fb h (ht c List.mem_cons_self) with ⟨-, d, hd, hi, hz⟩ | ⟨hi, -, hb⟩
        · rw [hi, List.flatMap_singleton]
          refine image_of_pair (fb.once d hd) ?_
          obtain ⟨i, h1, h2⟩ := mem_zip_index.1 hz
          exact mem_zip_index.2 ⟨i, h2, h1⟩
        · rw [hi, List.flatMap_singleton, image_of_not hb]
      rw [this]; rfl
  exact key s fun _ h => h

theorem respell_detour {a b c : CoreEntry} (fa : CoreFacts a) (fb : CoreFacts b) {s : PyStr}
    (h : SharedText a b s) (hc : hasTbl c.script = true) :
    respell b.script c.script (respell a.script b.script s) = respell a.script c.script s := by
  have key : ∀ t, (∀ x ∈ t, x ∈ s) →
      respell b.script c.script (respell a.script b.script t) = respell a.script c.script t := by
    intro t
    induction t with
    | nil => intro _; rfl
    | cons x t ih =>
      intro ht
      have ih := ih fun y hy => ht y (List.mem_cons_of_mem _ hy)
      unfold respell at ih ⊢
      rw [List.flatMap_cons, List.flatMap_append, ih, List.flatMap_cons]
      congr 1
      rcases shared_char fa fb h (ht x List.mem_cons_self) with ⟨hx, d, hd, hi, hz⟩ | ⟨hi, ha, hb⟩
      · rw [hi, List.flatMap_singleton]
        have hm : [d] ∈ letterList b.script := (List.of_mem_zip hz).2
        obtain ⟨y, hy⟩ := mem_zip_of_left (letterList_length fb.hasTbl hc) hm
        rw [image_of_pair (fb.once d hd) hy]
        obtain ⟨i, h1, h2⟩ := mem_zip_index.1 hz
        obtain ⟨j, h3, h4⟩ := mem_zip_index.1 hy
        have := countIn_index (fb.once d hd) h2 h3
        subst this
        exact (image_of_pair (fa.once x hx) (mem_zip_index.2 ⟨i, h1, h4⟩)).symm
      · rw [hi, List.flatMap_singleton, image_of_not hb, image_of_not ha]
  exact key s fun _ h => h

theorem shared_back {a b : CoreEntry} (fa : CoreFacts a) (fb : CoreFacts b) {s : PyStr} (h : SharedText a b s) :
    SharedText b a (respell a.script b.script s) :=
  ⟨h.target, by rw [respell_back fa fb h]; exact h.source⟩

theorem coreText_infix {e : CoreEntry} {s t : PyStr} (h : CoreText e t) (hi : s <:+: t) : CoreText e s :=
  ⟨fun c hc => h.chars c (hi.subset hc), fun f hf hs => h.free f hf (hs.trans hi)⟩

theorem nativeText_infix {e : CoreEntry} {s t : PyStr} (h : NativeText e t) (hi : s <:+: t) : NativeText e s :=
  ⟨fun c hc => h.chars c (hi.subset hc), fun f hf hs => h.free f hf (hs.trans hi)⟩

theorem respell_append (S T s t : PyStr) : respell S T (s ++ t) = respell S T s ++ respell S T t :=
  List.flatMap_append

end Verif
