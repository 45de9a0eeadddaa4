import Verif.Lib.RomanFwd
import Verif.Lib.CoreSound

/-!
# The rules of `FixRomanOutput` on texts made of sounds
-/

namespace Verif

/-- All characters. -/
def anyChar : CharSet where
  mem _ := true
  rangeOut _ _ := false
  noSpace := false
  range_sound := by intro _ _ _ h; cases h
  space_sound := by intro h; cases h

/-- Prefix test. -/
def begins : PyStr → PyStr → Bool
  | [], _ => true
  | _ :: _, [] => false
  | a :: as, b :: bs => match Nat.beq a b with | true => begins as bs | false => false

theorem begins_iff {w y : PyStr} : begins w y = true ↔ w <+: y := by
  induction w generalizing y with
  | nil => simp [begins]
  | cons a w ih =>
    cases y with
    | nil => simp [begins]
    | cons b y =>
      simp only [begins]
      split
      · rename_i h
        rw [ih, Nat.eq_of_beq_eq_true h]
        simp [List.cons_prefix_cons]
      · rename_i h
        constructor
        · intro h; cases h
        · intro h'
          rw [List.cons_prefix_cons] at h'
          rw [h'.1] at h
          simp at h

/-- Equal first characters. -/
def sameHead : PyStr → PyStr → Bool
  | a :: _, b :: _ => Nat.beq a b
  | [], [] => true
  | _, _ => false

theorem sameHead_iff {x y : PyStr} : sameHead x y = true ↔ x.head? = y.head? := by
  cases x <;> cases y <;> simp [sameHead]

/-- Checked form of `Foreign`. -/
def foreignOk (r : RomanEntry) (w : PyStr) : Bool :=
  bareOk w && r.marks.all (fun y => !(begins w y) && !(begins y w)) && w.head?.all fun c => !(natMem c r.free) && !(neuMem c)

theorem foreignOk_sound {r : RomanEntry} {w : PyStr} (h : foreignOk r w = true) : Foreign r w := by
  simp only [foreignOk, Bool.and_eq_true, List.all_eq_true, Bool.not_eq_true'] at h
  obtain ⟨⟨h1, h2⟩, h3⟩ := h
  have nb : ∀ {w y : PyStr}, begins w y = false → ¬ w <+: y := by
    intro w y h hp
    rw [begins_iff.2 hp] at h; cases h
  refine ⟨bareOk_sound h1, fun y hy => ?_, fun c hc he => ?_, fun c he => ?_⟩
  · have := h2 y hy
    exact ⟨nb this.1, nb this.2⟩
  · rw [he] at h3
    simp only [Option.all_some, Bool.and_eq_true, Bool.not_eq_true'] at h3
    rw [natMem_iff.2 hc] at h3; cases h3.1
  · rw [he] at h3
    simp only [Option.all_some, Bool.and_eq_true, Bool.not_eq_true'] at h3
    rw [neuMem_eq] at h3
    exact h3.2

/-- Checked form of `Spellings`. -/
def spellingsOk (r : RomanEntry) : Bool :=
  r.conss.all bareOk && r.vowels.all bareOk && r.marks.all bareOk &&
  r.free.all (fun c => !(Nat.beq c cSchwa) && !(Nat.beq c cDep) && !(Nat.beq c cVir)) &&
  (match inherentA r.script with | [_] => true | _ => false) &&
  (inherentA r.script).all (fun c => !(Nat.beq c cSchwa) && !(Nat.beq c cDep) && !(Nat.beq c cVir) && !(natMem c (charsIU r.script))) &&
  !(natMem cSep (charsIU r.script))

theorem spellingsOk_sound {r : RomanEntry} (h : spellingsOk r = true) : Spellings r := by
  simp only [spellingsOk, Bool.and_eq_true, List.all_eq_true, Bool.not_eq_true'] at h
  obtain ⟨⟨⟨⟨⟨⟨h1, h2⟩, h3⟩, h4⟩, h5⟩, h6⟩, h7⟩ := h
  have ne : ∀ {a b : Nat}, Nat.beq a b = false → a ≠ b := by
    intro a b h he; subst he; simp at h
  refine ⟨?_, ?_, ?_, ?_⟩
  · rintro y (hy | hy | hy)
    · exact bareOk_sound (h1 y hy)
    · exact bareOk_sound (h2 y hy)
    · exact bareOk_sound (h3 y hy)
  · intro c hc
    have := h4 c hc
    exact ⟨ne this.1.1, ne this.1.2, ne this.2⟩
  · split at h5
    · rename_i a ha
      have := h6 a (by rw [ha]; simp)
      refine ⟨a, ha, ne this.1.1.1, ne this.1.1.2, ne this.1.2, ?_⟩
      intro hm
      rw [natMem_iff.2 hm] at this; cases this.2
    · cases h5
  · intro hm
    rw [natMem_iff.2 hm] at h7; cases h7

/-- Checked form of `DeadFacts`. -/
def deadOk (r : RomanEntry) : Bool :=
  (plosives r.script).all (fun p => !p.isEmpty) && foreignOk r (letterH r.script) &&
  (lettersOf r.script GM.Vowels).all (fun v => foreignOk r v && r.conss.all fun y => !(begins v y)) &&
  (foreignOk r (nuktaOf r.script) && r.conss.all (fun y => !(begins (nuktaOf r.script) y)) &&
    r.vowels.all fun y => !(sameHead (nuktaOf r.script) y))

theorem deadOk_sound {r : RomanEntry} (h : deadOk r = true) : DeadFacts r := by
  simp only [deadOk, Bool.and_eq_true, List.all_eq_true, Bool.not_eq_true'] at h
  obtain ⟨⟨⟨h1, h2⟩, h3⟩, ⟨h4, h5⟩, h6⟩ := h
  have nb : ∀ {w y : PyStr}, begins w y = false → ¬ w <+: y := by
    intro w y h hp
    rw [begins_iff.2 hp] at h; cases h
  refine ⟨fun p hp he => ?_, foreignOk_sound h2, fun v hv => ⟨foreignOk_sound (h3 v hv).1, fun y hy => nb ((h3 v hv).2 y hy)⟩,
    foreignOk_sound h4, fun y hy => nb (h5 y hy), fun y hy he => ?_⟩
  · have := h1 p hp
    rw [he] at this; cases this
  · have := h6 y hy
    rw [sameHead_iff.2 he] at this; cases this

/-- Checked form of `DropFacts`. -/
def dropOk (r : RomanEntry) (W : List PyStr) : Bool :=
  strMem [cVir] W && (lettersOf r.script GM.VowelSignsNV).all (fun y => strMem y W) &&
  W.all fun w => strEq w [cVir] || (foreignOk r w && r.conss.all fun y => !(begins w y))

theorem dropOk_sound {r : RomanEntry} {W : List PyStr} (h : dropOk r W = true) : DropFacts r W := by
  simp only [dropOk, Bool.and_eq_true, Bool.or_eq_true, List.all_eq_true, Bool.not_eq_true', strMem_iff, strEq_iff] at h
  obtain ⟨⟨h1, h2⟩, h3⟩ := h
  refine ⟨h1, h2, fun w hw => ?_⟩
  rcases h3 w hw with h | ⟨h, h'⟩
  · exact .inl h
  · refine .inr ⟨foreignOk_sound h, fun y hy hp => ?_⟩
    have := h' y hy
    rw [begins_iff.2 hp] at this; cases this

/-- The rule inserts `_` after the word `w` before i and u. -/
def sepOk (R : PyStr) (w p t : PyStr) : Bool :=
  match compileSub p t with
  | some (r, [.lit c, .ref n]) =>
    Nat.beq c cSep && Nat.beq n 1 &&
    (match behindShape r with
    | some ([l], cs) => strEq l w && strEq cs (charsIU R)
    | _ => false)
  | _ => false

theorem sepOk_sound {E : Env} {R w p t : PyStr} (h : sepOk R w p t = true) (k : Prog) (s : PyStr) :
    (Prog.sub p t k).run E s =
      k.run E (walk (fun pre c _ => anyPrefix [w.reverse] pre && (charsIU R).contains c) (fun c => [cSep, c]) [] s) := by
  unfold sepOk at h
  simp only [Prog.run]
  split at h
  · rename_i r c n hc
    rw [hc]
    simp only [Bool.and_eq_true, Nat.beq_eq] at h
    obtain ⟨⟨rfl, rfl⟩, h⟩ := h
    split at h
    · rename_i l cs hb
      simp only [Bool.and_eq_true, strEq_iff] at h
      obtain ⟨rfl, rfl⟩ := h
      show k.run E _ = _
      rw [behindShape_sub hb E.uni (out := fun c => [cSep, c]) (fun c => rfl)]
      rfl
    · cases h
  · cases h

/-- The rule looks for words of the list. -/
def deadSub (F : List PyStr) (p t : PyStr) : Bool :=
  match compileSub p t with
  | some (r, _) => match (r.live anyChar F).2 with | [] => true | _ => false
  | none => false

theorem deadSub_sound {E : Env} {F : List PyStr} {p t : PyStr} (h : deadSub F p t = true) (k : Prog) {s : PyStr}
    (hs : ∀ f ∈ F, ¬ f <:+: s) : (Prog.sub p t k).run E s = k.run E s := by
  unfold deadSub at h
  simp only [Prog.run]
  split at h
  · rename_i r tm hc
    rw [hc]
    split at h
    · rename_i hl
      show k.run E _ = _
      rw [reSubC_dead (A := anyChar) hl ⟨fun _ _ => rfl, hs⟩]
    · cases h
  · cases h

/-- The rule drops the inherent vowel. -/
def dropSub (r : RomanEntry) (p t : PyStr) : Bool :=
  match compileSub p t with
  | some (q, []) =>
    (match aheadShape q with
    | some (cs, false, W) => strEq cs [cSchwa] && dropOk r W
    | _ => false)
  | _ => false

theorem dropSub_sound {E : Env} {r : RomanEntry} {p t : PyStr} (h : dropSub r p t = true) (k : Prog) (s : PyStr) :
    ∃ W, DropFacts r W ∧ (Prog.sub p t k).run E s = k.run E (walk (dropRule W) (fun _ => []) [] s) := by
  unfold dropSub at h
  simp only [Prog.run]
  split at h
  · rename_i q hc
    rw [hc]
    split at h
    · rename_i cs W hb
      simp only [Bool.and_eq_true, strEq_iff] at h
      obtain ⟨rfl, h⟩ := h
      refine ⟨W, dropOk_sound h, ?_⟩
      show k.run E _ = _
      rw [aheadShape_sub hb E.uni (out := fun _ => []) (fun c => rfl)]
      rfl
    · cases h
  · cases h

/-- The rules of `FixRomanOutput`, one by one. -/
def fixBody (r : RomanEntry) : Prog → Bool
  | .sub p2 t2 (.sub p3 t3 (.sub p4 t4 (.sub p5 t5 (.sub p6 t6 (.sub p7 t7 (.rep x1 y1 (.rep x2 y2 (.rep x3 y3 .done)))))))) =>
    sepOk r.script [cSchwa, cDep] p2 t2 && sepOk r.script (cDep :: (inherentA r.script ++ [cDep])) p3 t3 &&
    deadSub (deadWords r.script) p4 t4 && deadSub (deadWords r.script) p5 t5 && deadSub (deadWords r.script) p6 t6 &&
    dropSub r p7 t7 && strEq x1 [cSchwa] && strEq y1 (inherentA r.script) && strEq x2 [cDep] && strEq y2 [] &&
    strEq x3 [cVir] && strEq y3 []
  | _ => false

/-- The check of `FixRomanOutput`. -/
def fixOk (r : RomanEntry) : Bool :=
  spellingsOk r && deadOk r &&
  match (ConvertFix.FixRomanOutput r.script).prog with
  | .rep x _ k => strEq x [117, cVir] && fixBody r k
  | p => fixBody r p

theorem fixBody_run {E : Env} {r : RomanEntry} {p : Prog} (h : fixBody r p = true) (F : Spellings r) (D : DeadFacts r)
    {T : List Sound} (hT : ∀ x ∈ T, SoundOk r x) (hf : wellFormed T = true) (hb : noFalseAspirate r.script T = true) :
    p.run E (rawS r.script (fun _ => false) false T) = .ok (romanPieces r.script T).flatten := by
  unfold fixBody at h
  split at h
  · rename_i p2 t2 p3 t3 p4 t4 p5 t5 p6 t6 p7 t7 x1 y1 x2 y2 x3 y3
    simp only [Bool.and_eq_true, strEq_iff] at h
    obtain ⟨⟨⟨⟨⟨⟨⟨⟨⟨⟨⟨h2, h3⟩, h4⟩, h5⟩, h6⟩, h7⟩, rfl⟩, rfl⟩, rfl⟩, rfl⟩, rfl⟩, rfl⟩ := h
    obtain ⟨a0, ha, ha1, ha2, ha3, ha4⟩ := F.a
    rw [sepOk_sound h2]
    have e1 := sepPass1 F hT (pre := []) (by simp)
    rw [show (decide (([] : PyStr).head? = some cSchwa)) = false from rfl] at e1
    rw [show walk (fun pre c _ => anyPrefix [List.reverse [cSchwa, cDep]] pre && (charsIU r.script).contains c)
      (fun c => [cSep, c]) [] (rawS r.script (fun _ => false) false T) = rawS r.script Sound.isCons false T from e1]
    rw [sepOk_sound h3]
    have e2 := sepPass2 F hT (pre := []) ha ha1 ha4 (by simp) false
    rw [show (false || decide (([] : PyStr).take 2 = [a0, cDep])) = false from rfl] at e2
    rw [show (cDep :: (inherentA r.script ++ [cDep])).reverse = cDep :: ((inherentA r.script).reverse ++ [cDep]) by simp]
    rw [show walk (fun pre c _ => anyPrefix [cDep :: ((inherentA r.script).reverse ++ [cDep])] pre && (charsIU r.script).contains c)
      (fun c => [cSep, c]) [] (rawS r.script Sound.isCons false T) = rawS r.script (Sound.endsA r.script) false T from e2]
    have hd := dead_absent F D (Sound.endsA r.script) hT hf hb (b := false)
    rw [deadSub_sound h4 _ hd, deadSub_sound h5 _ hd, deadSub_sound h6 _ hd]
    obtain ⟨W, hW, e3⟩ := dropSub_sound (E := E) h7 (.rep [cSchwa] (inherentA r.script) (.rep [cDep] [] (.rep [cVir] [] .done)))
      (rawS r.script (Sound.endsA r.script) false T)
    rw [e3, walk_drop F hW hT]
    simp only [Prog.run]
    have e4 := spell_rawD F hT false
    simp only [List.nil_append] at e4
    rw [← e4]
    congr 1
    rw [pyReplace_single, pyReplace_single, pyReplace_single, List.flatMap_assoc, List.flatMap_assoc]
    refine flatMap_congr_mem ?_
    intro c _
    unfold spell
    by_cases h1 : c = cSchwa
    · rw [if_pos h1, if_pos h1, ha]
      simp [ha2, ha3]
    · rw [if_neg h1, if_neg h1]
      by_cases h2 : c = cDep
      · simp [h2]
      · by_cases h3 : c = cVir
        · simp [h3, cDep_ne_vir.symm]
        · simp [h2, h3]
  · cases h

theorem fixOk_run {E : Env} {r : RomanEntry} (h : fixOk r = true) {T : List Sound} (hT : ∀ x ∈ T, SoundOk r x)
    (hf : wellFormed T = true) (hb : noFalseAspirate r.script T = true) :
    (ConvertFix.FixRomanOutput r.script).prog.run E (rawS r.script (fun _ => false) false T) =
      .ok (romanPieces r.script T).flatten := by
  unfold fixOk at h
  rw [Bool.and_eq_true, Bool.and_eq_true] at h
  obtain ⟨⟨h1, h2⟩, h3⟩ := h
  have F := spellingsOk_sound h1
  have D := deadOk_sound h2
  split at h3
  · rename_i x y k hk
    rw [Bool.and_eq_true, strEq_iff] at h3
    rw [hk]
    simp only [Prog.run]
    rw [h3.1, pyReplace_of_not_infix (by simp) ?_]
    · exact fixBody_run h3.2 F D hT hf hb
    · rintro ⟨p, q, hi⟩
      have := virama_at F (fun _ => false) hT hf (p := p ++ [117]) (q := q) (b := false) (by rw [← hi]; simp)
      rcases this with h | h
      · simp at h
      · simp [cSchwa] at h
  · exact fixBody_run h3 F D hT hf hb

end Verif
