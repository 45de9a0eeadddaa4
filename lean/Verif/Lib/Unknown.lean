import Verif.Lib.FreshAna
import Verif.Spec.Unknown
import Verif.Spec.Core
import Verif.Lib.Still
import Verif.Lib.PlainUse

/-!
# Conversions from or to names the library does not know

All such names are treated alike, so it is enough to look at one of them.
-/

namespace Verif

/-- The part of `Unknown` that does not depend on case. -/
structure Fresh (n : PyStr) : Prop where
  name : n ∉ namesInUse
  part : ∀ w ∈ nameParts, ¬ w <:+: n

theorem Fresh.eq {n : PyStr} (h : Fresh n) {x : PyStr} (hx : strMem x namesInUse = true) : pyEq n x = false := by
  cases he : pyEq n x with
  | false => rfl
  | true => exact absurd (strMem_iff.1 hx) ((strEq_iff.1 he) ▸ h.name)

theorem Fresh.mem {n : PyStr} (h : Fresh n) {l : List PyStr} (hl : (l.all fun x => strMem x namesInUse) = true) :
    pyIn n l = false := by
  cases he : pyIn n l with
  | false => rfl
  | true => exact absurd (strMem_iff.1 (List.all_eq_true.1 hl n (strMem_iff.1 he))) h.name

theorem Fresh.sub {n : PyStr} (h : Fresh n) {w : PyStr} (hw : strMem w nameParts = true) : pyIn w n = false := by
  cases he : pyIn w n with
  | false => rfl
  | true => exact absurd (isInfix_iff.1 he) (h.part w (strMem_iff.1 hw))

theorem Fresh.key {β : Type} {n : PyStr} (h : Fresh n) {d : List (PyStr × β)}
    (hd : (d.all fun p => strMem p.1 namesInUse) = true) : hasKey d n = false := by
  have : dictGet? d n = none := by
    induction d with
    | nil => rfl
    | cons p d ih =>
      simp only [List.all_cons, Bool.and_eq_true] at hd
      have h1 : strEq p.1 n = false := by
        rw [strEq_false]
        intro he
        exact h.name (he ▸ strMem_iff.1 hd.1)
      simp only [dictGet?, h1]
      exact ih hd.2
  simp only [hasKey, this]

/-- The tests on the source that `PreProcess` makes. -/
structure SrcFacts (n : PyStr) : Prop where
  e1 : pyEq n (u! "Latn") = false
  e2 : pyEq n (u! "Itrans") = false
  e3 : pyEq n (u! "BarahaNorth") = false
  e4 : pyEq n (u! "BarahaSouth") = false
  e5 : pyEq n (u! "WarangCiti") = false
  e6 : pyEq n (u! "Hebr-Ar") = false
  e7 : pyEq n (u! "Arab-Ur") = false
  e8 : pyEq n (u! "Arab-Pa") = false
  e9 : pyEq n (u! "Hebr") = false
  e10 : pyEq n (u! "ISO") = false
  e11 : pyEq n (u! "IAST") = false
  e12 : pyEq n (u! "Titus") = false
  i1 : pyIn n GM.RomanDiacritic = false
  i2 : pyIn n GM.pipeScripts = false
  i3 : pyIn n us!["Syrj", "Syrn"] = false
  i4 : pyIn n GM.IndicScripts = false
  i5 : pyIn n us!["Grantha", "TamilGrantha"] = false
  i6 : pyIn n us!["IAST", "ISO", "ISOPali", "Titus", "IASTPali"] = false
  i7 : pyIn n us!["IAST", "ISO", "ISOPali", "IASTPali", "Titus"] = false
  i8 : pyIn n GM.LatinScripts = false
  i9 : pyIn n GM.SemiticScripts = false
  i10 : pyIn n GM.Transliteration = false
  i11 : pyIn n us!["Hiragana", "Katakana"] = false
  s1 : pyIn (u! "Arab") n = false
  s2 : pyIn (u! "IAST") n = false
  s3 : pyIn (u! "ISO") n = false
  s4 : pyIn (u! "RomanLoC") n = false
  s5 : pyIn (u! "Syr") n = false

theorem Fresh.facts {n : PyStr} (h : Fresh n) : SrcFacts n := by
  constructor
  all_goals first
    | exact h.eq (by decide +kernel)
    | exact h.mem (by decide +kernel)
    | exact h.sub (by decide +kernel)

/-- Unknown sources are interchangeable in `PreProcess`. -/
theorem fresh_pre_src {n m : PyStr} (hn : Fresh n) (hm : Fresh m) (T : PyStr) :
    PreProcess.PreProcess n T [] [] = PreProcess.PreProcess m T [] [] := by
  obtain ⟨a1, a2, a3, a4, a5, a6, a7, a8, a9, a10, a11, a12, a13, a14, a15, a16, a17, a18, a19, a20, a21, a22, a23, a24, a25, a26, a27, a28⟩ := hn.facts
  obtain ⟨b1, b2, b3, b4, b5, b6, b7, b8, b9, b10, b11, b12, b13, b14, b15, b16, b17, b18, b19, b20, b21, b22, b23, b24, b25, b26, b27, b28⟩ := hm.facts
  simp only [PreProcess.PreProcess, PreProcess.normalize, a1, a2, a3, a4, a5, a6, a7, a8, a9, a10, a11, a12, a13, a14, a15,
    a16, a17, a18, a19, a24, a25, a26, a27, b1, b2, b3, b4, b5, b6, b7, b8, b9, b10, b11, b12, b13, b14, b15,
    b16, b17, b18, b19, b24, b25, b26, b27, Bool.false_and, Bool.or_false, branch_false]

/-- Unknown targets are interchangeable in `PreProcess`. -/
theorem fresh_pre_tgt {n m : PyStr} (hn : Fresh n) (hm : Fresh m) (S : PyStr) :
    PreProcess.PreProcess S n [] [] = PreProcess.PreProcess S m [] [] := by
  have a1 := hn.facts; have b1 := hm.facts
  have a2 := hn.eq (x := u! "Tamil") (by decide +kernel)
  have b2 := hm.eq (x := u! "Tamil") (by decide +kernel)
  simp only [PreProcess.PreProcess, a1.i4, a1.i8, a1.i10, a1.s5, a2, b1.i4, b1.i8, b1.i10, b1.s5, b2, Bool.and_false, branch_false]

/-- Nothing is converted from an unknown source. -/
theorem convertScript_src {n : PyStr} (hn : Fresh n) (T : PyStr) : convertScript n T = PostProcess.default := by
  have a := hn.facts
  simp only [convertScript, convertIndic, a.i4, a.i8, a.i9, Bool.or_false, branch_false]
  cases pyIn T GM.SemiticScripts <;> rfl

/-- Nothing is converted to an unknown target. -/
theorem convertScript_tgt {n : PyStr} (hn : Fresh n) (S : PyStr) : convertScript S n = PostProcess.default := by
  have a := hn.facts
  simp only [convertScript, convertIndic, a.i4, a.i8, a.i9, Bool.or_false, branch_false]
  cases pyIn S GM.SemiticScripts <;> cases pyIn S GM.LatinScripts <;> cases pyIn S GM.IndicScripts <;> rfl

theorem fresh_nat_src {n m : PyStr} (hn : Fresh n) (hm : Fresh m) (T : PyStr) :
    nativization n T [] = nativization m T [] := by
  have a := hn.facts; have b := hm.facts
  have a1 := hn.eq (x := u! "Arab") (by decide +kernel)
  have b1 := hm.eq (x := u! "Arab") (by decide +kernel)
  have a2 := hn.eq (x := u! "Arab-Fa") (by decide +kernel)
  have b2 := hm.eq (x := u! "Arab-Fa") (by decide +kernel)
  have a3 := hn.eq (x := u! "Syrn") (by decide +kernel)
  have b3 := hm.eq (x := u! "Syrn") (by decide +kernel)
  have a4 := hn.eq (x := u! "Syrj") (by decide +kernel)
  have b4 := hm.eq (x := u! "Syrj") (by decide +kernel)
  simp only [nativization, applyScriptDefaults, a.e7, a.e8, a.e9, b.e7, b.e8, b.e9, a1, a2, a3, a4, b1, b2, b3, b4]

theorem fresh_nat_tgt {n : PyStr} (hn : Fresh n) (S : PyStr) :
    nativization S n [] = PostProcess.RemoveDiacritics := by
  have e : ∀ {x : PyStr}, strMem x namesInUse = true → pyEq n x = false := hn.eq
  simp only [nativization, applyScriptDefaults, hn.facts.e1,
    e (x := u! "Telugu") (by decide +kernel), e (x := u! "Kannada") (by decide +kernel), e (x := u! "Sinhala") (by decide +kernel),
    e (x := u! "Khojki") (by decide +kernel), e (x := u! "Nandinagari") (by decide +kernel), e (x := u! "Hebrew") (by decide +kernel),
    e (x := u! "Malayalam") (by decide +kernel), e (x := u! "Tamil") (by decide +kernel), e (x := u! "Bengali") (by decide +kernel),
    e (x := u! "MeeteiMayek") (by decide +kernel), e (x := u! "Limbu") (by decide +kernel), e (x := u! "Assamese") (by decide +kernel),
    e (x := u! "Oriya") (by decide +kernel), e (x := u! "Chakma") (by decide +kernel), e (x := u! "Gurmukhi") (by decide +kernel),
    e (x := u! "Saurashtra") (by decide +kernel), e (x := u! "Ahom") (by decide +kernel), e (x := u! "Tibetan") (by decide +kernel),
    e (x := u! "Thaana") (by decide +kernel), e (x := u! "Avestan") (by decide +kernel), e (x := u! "Sundanese") (by decide +kernel),
    e (x := u! "Multani") (by decide +kernel), e (x := u! "Modi") (by decide +kernel), e (x := u! "WarangCiti") (by decide +kernel),
    e (x := u! "Arab") (by decide +kernel), branch_false, branch_true, Bool.not_false]
  rfl

theorem defaultPost_tgt {n m : PyStr} (hn : Fresh n) (hm : Fresh m) (S S' : PyStr) (nat : Bool) :
    PostProcess.defaultPost S n nat [] [] = PostProcess.defaultPost S' m nat [] [] := by
  have a := hn.facts; have b := hm.facts
  simp only [PostProcess.defaultPost, a.i10, b.i10, pyIn_nil, branch_false]

/-- The name used in the checks. -/
def someName : PyStr := u! "Klingon"

theorem someName_fresh : Fresh someName := by
  constructor
  · rw [← strMem_iff]; decide +kernel
  · intro w hw
    rw [← isInfix_iff]
    revert w
    decide +kernel

/-- A text with none of the words, nor of the characters of the mask, nor of the shield range. -/
def holderMem (m c : Nat) : Bool :=
  match Nat.ble 0xEE01 c && Nat.ble c 0xEE7F with
  | true => false
  | false => !(m.testBit c)

/-- Characters outside a mask and the shield range. -/
def awaySet (m : Nat) : CharSet where
  mem := holderMem m
  rangeOut a b := match Nat.ble b (a + 400) with
    | true => runIn m a (b + 1 - a)
    | false => false
  noSpace := false
  range_sound := by
    intro a b c h h1 h2
    split at h
    · have := runIn_sound h h1 (by omega)
      unfold holderMem
      split
      · rfl
      · rw [this]; rfl
    · cases h
  space_sound := by intro h; cases h

/-- The part of the program leaves such texts alone. -/
structure Quiet (A : CharSet) (F : List PyStr) (g : Gen Unit) : Prop where
  lin : Lin g
  safe : g.prog.safe false = true
  still : g.prog.still A F (fun _ => false) = true

theorem Quiet.run {A : CharSet} {F : List PyStr} {g : Gen Unit} (q : Quiet A F g) {E : Env} (hE : E.Total) {s : PyStr}
    (hs : InCore A F s) : g.prog.run E s = .ok s := by
  obtain ⟨r, hr⟩ := Prog.safe_total hE q.safe s
  rw [hr, Prog.still_sound q.still hs (fun _ h => by cases h) hr]

theorem Quiet.seq {A : CharSet} {F : List PyStr} {g h : Gen Unit} (q : Quiet A F g) {E : Env} (hE : E.Total) {s : PyStr}
    (hs : InCore A F s) (hh : h.prog.run E s = .ok s) : (g >>= fun _ => h).prog.run E s = .ok s := by
  rw [q.lin.prog_seq, Prog.run_append, q.run hE hs]
  exact hh

/-- Checked form of `Quiet`. -/
def quietOk (A : CharSet) (F : List PyStr) (g : Gen Unit) : Bool :=
  match g.prog.safe false with
  | true => g.prog.still A F (fun _ => false)
  | false => false

theorem quietOk_sound {A : CharSet} {F : List PyStr} {g : Gen Unit} (h : quietOk A F g = true) (hl : Lin g) : Quiet A F g := by
  unfold quietOk at h
  split at h
  · exact ⟨hl, by assumption, h⟩
  · cases h

/-- The words a text must not have. -/
def settledWords : List PyStr := svaraWords ++ variantWords ++ markerWords

/-- The same and the removable diacritics. -/
def bareWords : List PyStr := settledWords ++ GM.DiacriticsRemovable

theorem settled_core {m : Nat} {s : PyStr} (h : Settled s) (hm : ∀ c ∈ s, m.testBit c = false) :
    InCore (awaySet m) settledWords s := by
  refine ⟨fun c hc => ?_, h.words⟩
  show holderMem m c = true
  unfold holderMem
  split
  · rename_i hr
    simp only [Bool.and_eq_true, Nat.ble_eq] at hr
    have := h.shields c hc
    omega
  · rw [hm c hc]; rfl

theorem bare_core {m : Nat} {s : PyStr} (h : Settled s) (hb : NoRemovable s) (hm : ∀ c ∈ s, m.testBit c = false) :
    InCore (awaySet m) bareWords s := by
  refine ⟨(settled_core h hm).1, fun f hf => ?_⟩
  rcases List.mem_append.1 hf with hf | hf
  · exact h.words f hf
  · exact hb f hf

theorem InCore.weaken {A B : CharSet} {F G : List PyStr} {s : PyStr} (h : InCore A F s) (hA : ∀ c, A.mem c = true → B.mem c = true)
    (hF : ∀ f ∈ G, f ∈ F) : InCore B G s :=
  ⟨fun c hc => hA c (h.1 c hc), fun f hf => h.2 f (hF f hf)⟩

/-! ## The checks -/

theorem quiet_pre : (us!["Devanagari", "IAST", "Klingon"].all fun T =>
    quietOk (awaySet 0) settledWords (PreProcess.PreProcess someName T [] [])) = true := by decide +kernel

theorem quiet_grantha : (us!["Grantha", "TamilGrantha"].all fun S =>
    quietOk (awaySet 0) settledWords (PreProcess.PreProcess S someName [] [])) = true := by decide +kernel

theorem quiet_default : quietOk (awaySet 0) settledWords PostProcess.default = true := by decide +kernel

theorem quiet_latin : quietOk (awaySet 0) settledWords (PreProcess.retainLatin true) = true := by decide +kernel

theorem quiet_post : (us!["Devanagari", "IAST"].all fun T =>
    quietOk (awaySet 0) settledWords (PostProcess.defaultPost someName T true [] [])) = true := by decide +kernel

theorem quiet_remove : quietOk (awaySet 0) bareWords PostProcess.RemoveDiacritics = true := by decide +kernel

/-- Mask of the characters of a script. -/
def alphabetMask (T : PyStr) : Nat := maskOf ((letterList T).flatMap id)

/-- Targets whose nativisation also touches other characters than those of the script. -/
def broadTargets : List PyStr := us!["Hebrew", "Multani", "Tibetan", "Arab"]

theorem quiet_nat : (directTargets.all fun T => strMem T broadTargets ||
    withNat (alphabetMask T) fun m => quietOk (awaySet m) bareWords (applyScriptDefaults someName T [])) = true := by decide +kernel

theorem quiet_removeTamil : (withNat (alphabetMask (u! "Tamil")) fun m =>
    quietOk (awaySet m) bareWords PostProcess.RemoveDiacriticsTamil) = true := by decide +kernel

end Verif
