import Verif.Lib.Compat
import Verif.Lib.CoreChecks
import Verif.Props.Plain

/-!
# C12–C16, C37: conversions between Indic scripts, letter by letter

`coreTable` (`Verif.Spec.CoreTable`) lists 87 Indic scripts with their core letters and the letter
sequences their orthographic rules rewrite; `SharedText a b s` says that the text is core text and
so is its spelling in the other script (`Verif.Spec.Core`); `clashing` (`Verif.Spec.Clash`) lists
the 41 ordered pairs of closely related scripts that use a character for different letters.
-/

namespace Verif

theorem facts {e : CoreEntry} (h : e ∈ coreTable) : Nonempty (CoreFacts e) := coreFacts (coreOk_all e h)

/-- The conversion of core text is the text letter by letter: the letter at the same place of the
other table for every letter, all other characters unchanged, nothing else. -/
theorem C15_letter_by_letter (E : Env) (hE : E.TextOps) (a b : CoreEntry) (ha : a ∈ coreTable) (hb : b ∈ coreTable)
    (hne : a.script ≠ b.script) (hag : Agree a.script b.script) (s : PyStr) (hs : SharedText a b s) (nativize : Bool)
    (hn : nativize = true → NativeText b (respell a.script b.script s)) :
    process E a.script b.script s nativize [] [] (u! "default") = .ok (some (respell a.script b.script s)) := by
  obtain ⟨fa⟩ := facts ha
  obtain ⟨fb⟩ := facts hb
  obtain ⟨r, hr⟩ := C09_no_exception E hE _ _ fa.src fb.tgt s nativize
  rw [hr]
  rw [process_plain hE fa.src fb.tgt] at hr
  cases hc : (convert a.script b.script nativize [] []).prog.run E s with
  | error x => rw [hc] at hr; cases hr
  | ok r' =>
    rw [hc] at hr
    cases hr
    rw [core_convert fa fb hne (compatible_of_agree ha hb hne hag) hs.source hs.target hn hc]

/-- C15: the result has one code point for every code point of the text, and the one at a position
depends only on the one at the same position of the text. -/
theorem C15_position_by_position (E : Env) (hE : E.TextOps) (a b : CoreEntry) (ha : a ∈ coreTable)
    (hb : b ∈ coreTable) (hne : a.script ≠ b.script) (hag : Agree a.script b.script) :
    ∃ f : Nat → Nat, ∀ s, SharedText a b s →
      process E a.script b.script s false [] [] (u! "default") = .ok (some (s.map f)) := by
  refine ⟨fun c => (image a.script b.script c).headD 0, fun s hs => ?_⟩
  rw [C15_letter_by_letter E hE a b ha hb hne hag s hs false (by simp)]
  obtain ⟨fa⟩ := facts ha
  obtain ⟨fb⟩ := facts hb
  have key : ∀ t, (∀ c ∈ t, c ∈ s) →
      respell a.script b.script t = t.map fun c => (image a.script b.script c).headD 0 := by
    intro t
    induction t with
    | nil => intro _; rfl
    | cons c t ih =>
      intro ht
      have ih := ih fun x hx => ht x (List.mem_cons_of_mem _ hx)
      unfold respell at ih ⊢
      rw [List.flatMap_cons, ih, List.map_cons]
      rcases shared_char fa fb hs (ht c List.mem_cons_self) with ⟨-, d, -, hi, -⟩ | ⟨hi, -, -⟩ <;> rw [hi] <;> rfl
  rw [key s fun _ h => h]

/-- C12: there and back is the identity on shared text. -/
theorem C12_round_trip (E : Env) (hE : E.TextOps) (a b : CoreEntry) (ha : a ∈ coreTable) (hb : b ∈ coreTable)
    (hne : a.script ≠ b.script) (hab : Agree a.script b.script) (hba : Agree b.script a.script) (s : PyStr)
    (hs : SharedText a b s) :
    ∃ t, process E a.script b.script s false [] [] (u! "default") = .ok (some t) ∧
      process E b.script a.script t false [] [] (u! "default") = .ok (some s) := by
  obtain ⟨fa⟩ := facts ha
  obtain ⟨fb⟩ := facts hb
  refine ⟨_, C15_letter_by_letter E hE a b ha hb hne hab s hs false (by simp), ?_⟩
  rw [C15_letter_by_letter E hE b a hb ha (Ne.symm hne) hba _ (shared_back fa fb hs) false (by simp), respell_back fa fb hs]

/-- C12 with nativisation, for text that nativisation leaves alone. -/
theorem C12_round_trip_native (E : Env) (hE : E.TextOps) (a b : CoreEntry) (ha : a ∈ coreTable) (hb : b ∈ coreTable)
    (hne : a.script ≠ b.script) (hab : Agree a.script b.script) (hba : Agree b.script a.script) (s : PyStr)
    (hs : SharedText a b s) (n₁ n₂ : Bool) (hn₁ : n₁ = true → NativeText b (respell a.script b.script s))
    (hn₂ : n₂ = true → NativeText a s) :
    ∃ t, process E a.script b.script s n₁ [] [] (u! "default") = .ok (some t) ∧
      process E b.script a.script t n₂ [] [] (u! "default") = .ok (some s) := by
  obtain ⟨fa⟩ := facts ha
  obtain ⟨fb⟩ := facts hb
  refine ⟨_, C15_letter_by_letter E hE a b ha hb hne hab s hs n₁ hn₁, ?_⟩
  have hb' := respell_back fa fb hs
  rw [C15_letter_by_letter E hE b a hb ha (Ne.symm hne) hba _ (shared_back fa fb hs) n₂
    (fun h => by rw [hb']; exact hn₂ h), hb']

/-- C12: different shared texts have different results. -/
theorem C12_injective (E : Env) (hE : E.TextOps) (a b : CoreEntry) (ha : a ∈ coreTable) (hb : b ∈ coreTable)
    (hne : a.script ≠ b.script) (hab : Agree a.script b.script) (s t : PyStr)
    (hs : SharedText a b s) (ht : SharedText a b t)
    (h : process E a.script b.script s false [] [] (u! "default") = process E a.script b.script t false [] [] (u! "default")) :
    s = t := by
  obtain ⟨fa⟩ := facts ha
  obtain ⟨fb⟩ := facts hb
  rw [C15_letter_by_letter E hE a b ha hb hne hab s hs false (by simp),
    C15_letter_by_letter E hE a b ha hb hne hab t ht false (by simp)] at h
  have h : respell a.script b.script s = respell a.script b.script t := by injection h with h; injection h
  rw [← respell_back fa fb hs, h, respell_back fa fb ht]

/-- C13: a text may be converted in pieces, cut anywhere. -/
theorem C13_chunkwise (E : Env) (hE : E.TextOps) (a b : CoreEntry) (ha : a ∈ coreTable) (hb : b ∈ coreTable)
    (hne : a.script ≠ b.script) (hag : Agree a.script b.script) (s t : PyStr) (hst : SharedText a b (s ++ t)) :
    ∃ x y, process E a.script b.script s false [] [] (u! "default") = .ok (some x) ∧
      process E a.script b.script t false [] [] (u! "default") = .ok (some y) ∧
      process E a.script b.script (s ++ t) false [] [] (u! "default") = .ok (some (x ++ y)) := by
  have hr := respell_append a.script b.script s t
  have hs : SharedText a b s := ⟨coreText_infix hst.source (List.prefix_append s t).isInfix,
    coreText_infix hst.target (by rw [hr]; exact (List.prefix_append _ _).isInfix)⟩
  have ht : SharedText a b t := ⟨coreText_infix hst.source (List.suffix_append s t).isInfix,
    coreText_infix hst.target (by rw [hr]; exact (List.suffix_append _ _).isInfix)⟩
  refine ⟨_, _, C15_letter_by_letter E hE a b ha hb hne hag s hs false (by simp),
    C15_letter_by_letter E hE a b ha hb hne hag t ht false (by simp), ?_⟩
  rw [C15_letter_by_letter E hE a b ha hb hne hag _ hst false (by simp), hr]

/-- C14: a detour through a third script changes nothing. -/
theorem C14_detour (E : Env) (hE : E.TextOps) (a b c : CoreEntry) (ha : a ∈ coreTable) (hb : b ∈ coreTable)
    (hc : c ∈ coreTable) (hne : a.script ≠ b.script) (hne' : b.script ≠ c.script) (hne'' : a.script ≠ c.script)
    (hab : Agree a.script b.script) (hbc : Agree b.script c.script) (hac : Agree a.script c.script) (s : PyStr)
    (h1 : SharedText a b s) (h2 : SharedText a c s) :
    ∃ x y, process E a.script b.script s false [] [] (u! "default") = .ok (some x) ∧
      process E b.script c.script x false [] [] (u! "default") = .ok (some y) ∧
      process E a.script c.script s false [] [] (u! "default") = .ok (some y) := by
  obtain ⟨fa⟩ := facts ha
  obtain ⟨fb⟩ := facts hb
  obtain ⟨fc⟩ := facts hc
  have hd := respell_detour fa fb h1 fc.hasTbl
  refine ⟨_, _, C15_letter_by_letter E hE a b ha hb hne hab s h1 false (by simp), ?_,
    C15_letter_by_letter E hE a c ha hc hne'' hac s h2 false (by simp)⟩
  rw [C15_letter_by_letter E hE b c hb hc hne' hbc _ ⟨h1.target, by rw [hd]; exact h2.target⟩ false (by simp), hd]

/-- C37: rules ordered by length act letter by letter, if no long left-hand side occurs in the text
and what a rule for a character of the text yields has no character with a rule of its own. -/
theorem C37_table_pass (E : Env) (L : List (PyStr × PyStr)) (s : PyStr) (hsort : LongestFirst L)
    (h0 : ∀ p ∈ L, p.1 ≠ []) (h1 : ∀ p ∈ L, 2 ≤ p.1.length → ¬ p.1 <:+: s)
    (h2 : ∀ c ∈ s, ∀ y, ([c], y) ∈ L → ∀ d ∈ y, ∀ p ∈ L, p.1 ≠ [d]) :
    (replaceAll L).prog.run E s = .ok (s.flatMap fun c => (L.lookup [c]).getD [c]) := by
  rw [run_replaceAll, applyRules_letterwise hsort h0 h1 h2]
  have : charImage L = fun c => (L.lookup [c]).getD [c] := by
    funext c
    unfold charImage
    cases L.lookup [c] <;> rfl
  rw [this]

/-! ## Examples -/

def isCore (e : CoreEntry) (s : PyStr) : Bool :=
  s.all (fun c => natMem c e.letters || (natMem c plainChars && !(natMem c e.notPlain)) || isNeutral c) &&
  e.forbid.all fun f => !(isInfix f s)

theorem isCore_sound {e : CoreEntry} {s : PyStr} (h : isCore e s = true) : CoreText e s := by
  simp only [isCore, Bool.and_eq_true, List.all_eq_true, Bool.or_eq_true, Bool.not_eq_true', natMem_iff] at h
  refine ⟨fun c hc => ?_, fun f hf hi => ?_⟩
  · rcases h.1 c hc with (h1 | ⟨h1, h2⟩) | h1
    · exact .inl h1
    · refine .inr (.inl ⟨h1, fun hm => ?_⟩)
      rw [natMem_iff.2 hm] at h2; cases h2
    · exact .inr (.inr h1)
  · have := h.2 f hf
    rw [isInfix_iff.2 hi] at this; cases this

theorem isShared_sound {a b : CoreEntry} {s : PyStr}
    (h : (isCore a s && isCore b (respell a.script b.script s)) = true) : SharedText a b s := by
  rw [Bool.and_eq_true] at h
  exact ⟨isCore_sound h.1, isCore_sound h.2⟩

theorem agree_sound {S T : PyStr} (h : (clashing.all fun p => !(strEq p.1 S) || !(strMem T p.2)) = true) : Agree S T := by
  intro l hl hm
  have := List.all_eq_true.1 h _ hl
  simp [strEq_refl, strMem_iff.2 hm] at this

def gita : PyStr := u! "धर्मक्षेत्रे कुरुक्षेत्रे समवेता युयुत्सवः (नमस्ते) 中文\nऋग्वेद"

theorem gita_telugu : SharedText coreDevanagari coreTelugu gita := isShared_sound (by decide +kernel)
theorem gita_brahmi : SharedText coreDevanagari coreBrahmi gita := isShared_sound (by decide +kernel)

example : respell (u! "Devanagari") (u! "Telugu") gita =
    u! "ధర్మక్షేత్రే కురుక్షేత్రే సమవేతా యుయుత్సవః (నమస్తే) 中文\nఋగ్వేద" := by decide +kernel

example : coreDevanagari ∈ coreTable ∧ coreTelugu ∈ coreTable ∧ coreDevanagari.script ≠ coreTelugu.script ∧
    Agree coreDevanagari.script coreTelugu.script ∧ Agree coreTelugu.script coreDevanagari.script ∧
    SharedText coreDevanagari coreTelugu gita ∧ NativeText coreDevanagari gita :=
  ⟨by simp [coreTable], by simp [coreTable], by decide, agree_sound (by decide +kernel), agree_sound (by decide +kernel),
    gita_telugu, fun _ _ => List.not_mem_nil, fun _ h => (List.not_mem_nil h).elim⟩

example (E : Env) (hE : E.TextOps) : ∃ x y, process E (u! "Devanagari") (u! "Telugu") gita false [] [] (u! "default") = .ok (some x) ∧
    process E (u! "Telugu") (u! "Brahmi") x false [] [] (u! "default") = .ok (some y) ∧
    process E (u! "Devanagari") (u! "Brahmi") gita false [] [] (u! "default") = .ok (some y) :=
  C14_detour E hE coreDevanagari coreTelugu coreBrahmi (by simp [coreTable]) (by simp [coreTable]) (by simp [coreTable])
    (by decide) (by decide) (by decide) (agree_sound (by decide +kernel)) (agree_sound (by decide +kernel))
    (agree_sound (by decide +kernel)) gita gita_telugu gita_brahmi

/-- Shared texts may be of any length. -/
example (n : Nat) : SharedText coreDevanagari coreBrahmi (List.replicate n 0x915) := by
  have hr : respell coreDevanagari.script coreBrahmi.script (List.replicate n 0x915) = List.replicate n 0x11013 := by
    induction n with
    | zero => rfl
    | succ n ih =>
      have : respell coreDevanagari.script coreBrahmi.script [0x915] = [0x11013] := by decide +kernel
      rw [List.replicate_succ, List.replicate_succ, ← ih, ← List.singleton_append, respell_append, this]; rfl
  have key : ∀ (e : CoreEntry) (c : Nat), c ∈ e.letters → (∀ f ∈ e.forbid, ∃ d ∈ f, d ≠ c) → CoreText e (List.replicate n c) := by
    intro e c hc hf
    refine ⟨fun d hd => .inl ((List.eq_of_mem_replicate hd) ▸ hc), fun f h hi => ?_⟩
    obtain ⟨d, hd, hne⟩ := hf f h
    exact hne (List.eq_of_mem_replicate (hi.subset hd))
  exact ⟨key _ _ (by decide) (by decide), by rw [hr]; exact key _ _ (by decide) (by decide)⟩

/-! ## C16: digits and full stops -/

/-- **C16 fails** in the code as it is: the ASCII digits and the full stop are the digits and the
danda of the Telugu table, so a Devanagari text with them does not survive the way to Telugu and
back. -/
theorem C16_digits_and_stops_lost :
    ∃ t, process sampleEnv (u! "Devanagari") (u! "Telugu") (u! "क 12.") false [] [] (u! "default") = .ok (some t) ∧
      process sampleEnv (u! "Telugu") (u! "Devanagari") t false [] [] (u! "default") = .ok (some (u! "क १२।")) :=
  ⟨u! "క 12.", by decide +kernel, by decide +kernel⟩

/-- C16 for texts whose digits and full stops are plain characters of both scripts (that is, members
of `notPlain` of neither): they keep their places, and the text survives the round trip.  Missing:
the scripts that use ASCII digits or the full stop in their tables, where the property fails. -/
theorem C16_digits_and_stops_partial (E : Env) (hE : E.TextOps) (a b : CoreEntry) (ha : a ∈ coreTable) (hb : b ∈ coreTable)
    (hne : a.script ≠ b.script) (hab : Agree a.script b.script) (hba : Agree b.script a.script)
    (s : PyStr) (hs : SharedText a b s) :
    ∃ t, process E a.script b.script s false [] [] (u! "default") = .ok (some t) ∧
      (∀ (i c : Nat), c ∈ (u! ".0123456789") → (t[i]? = some c ↔ s[i]? = some c)) ∧
      process E b.script a.script t false [] [] (u! "default") = .ok (some s) := by
  obtain ⟨t, h1, h2⟩ := C12_round_trip E hE a b ha hb hne hab hba s hs
  refine ⟨t, h1, ?_, h2⟩
  obtain ⟨f, hf⟩ := C15_position_by_position E hE a b ha hb hne hab
  rw [C15_letter_by_letter E hE a b ha hb hne hab s hs false (by simp)] at h1
  cases h1
  obtain ⟨fa⟩ := facts ha
  obtain ⟨fb⟩ := facts hb
  have key : ∀ t : PyStr, (∀ x ∈ t, x ∈ s) → ∀ (i c : Nat), c ∈ (u! ".0123456789") →
      ((respell a.script b.script t)[i]? = some c ↔ t[i]? = some c) := by
    intro t
    induction t with
    | nil => intro _ i c _; simp [respell]
    | cons x t ih =>
      intro ht i c hc
      have ih := ih fun y hy => ht y (List.mem_cons_of_mem _ hy)
      have hp : c ∈ plainChars := by
        have : ∀ c ∈ (u! ".0123456789"), c ∈ plainChars := by decide
        exact this c hc
      obtain ⟨d, hd, he⟩ : ∃ d, respell a.script b.script (x :: t) = d :: respell a.script b.script t ∧ (d = c ↔ x = c) := by
        rcases shared_char fa fb hs (ht x List.mem_cons_self) with ⟨hx, d, hd, hi, -⟩ | ⟨hi, -, -⟩
        · refine ⟨d, by unfold respell; rw [List.flatMap_cons, hi]; rfl, ?_, ?_⟩
          · rintro rfl; exact ((fb.apart d hd).2 hp).elim
          · rintro rfl; exact ((fa.apart x hx).2 hp).elim
        · exact ⟨x, by unfold respell; rw [List.flatMap_cons, hi]; rfl, Iff.rfl⟩
      rw [hd]
      cases i with
      | zero => simpa using he
      | succ i => simpa using ih i c hc
  exact key s fun _ h => h

/-- A text with digits and full stops that is shared by Devanagari and Bengali. -/
example : SharedText coreDevanagari coreBengali (u! "गीता 1.12, नमः.") ∧
    Agree coreDevanagari.script coreBengali.script ∧ Agree coreBengali.script coreDevanagari.script :=
  ⟨isShared_sound (by decide +kernel), agree_sound (by decide +kernel), agree_sound (by decide +kernel)⟩

end Verif
