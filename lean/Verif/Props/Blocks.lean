import Verif.Spec.Blocks
import Verif.Props.Spelling

/-!
# C39: scripts with parallel Unicode blocks
-/

namespace Verif

/-- A letter at a regular place that becomes a single core letter keeps its offset. -/
def blockOk (a b : Block) : Bool :=
  ((letterList a.core.script).zip (letterList b.core.script)).all fun p =>
    match p with
    | ([c], [d]) =>
      Nat.beq (c + b.base) (d + a.base) || Nat.blt c a.base || Nat.ble (a.base + 0x80) c || natMem (c - a.base) a.odd ||
        natMem (c - a.base) b.odd || !(natMem c a.core.letters) || !(natMem d b.core.letters)
    | _ => true

/-- No plain or neutral character lies in a block. -/
def blockClear (a : Block) : Bool :=
  plainChars.all (fun c => Nat.blt c a.base) &&
  (List.range 0x80).all fun o => !(neuMem (a.base + o))

set_option maxRecDepth 100000 in
theorem blockOk_all : (blocks.all fun a => blocks.all fun b => strEq a.core.script b.core.script || blockOk a b) = true := by
  decide +kernel
set_option maxRecDepth 100000 in
theorem blockClear_all : blocks.all blockClear = true := by decide +kernel
theorem blocks_core : ∀ a ∈ blocks, a.core ∈ coreTable := by
  intro a h
  simp only [blocks, List.mem_cons, List.not_mem_nil, or_false] at h
  rcases h with rfl | rfl | rfl | rfl | rfl | rfl | rfl | rfl | rfl | rfl <;> simp [coreTable]

/-- C39: between scripts with parallel blocks, converting shared text is moving every letter by the
distance of the blocks. -/
theorem C39_parallel_blocks (E : Env) (hE : E.TextOps) (a b : Block) (ha : a ∈ blocks) (hb : b ∈ blocks)
    (hne : a.core.script ≠ b.core.script) (hag : Agree a.core.script b.core.script) (s : PyStr)
    (hs : SharedText a.core b.core s) (hr : ∀ c ∈ s, c ∈ a.core.letters → a.regular b c) :
    process E a.core.script b.core.script s false [] [] (u! "default") = .ok (some (s.map (moveBlock a b))) := by
  have hca := blocks_core a ha
  have hcb := blocks_core b hb
  rw [C15_letter_by_letter E hE a.core b.core hca hcb hne hag s hs false (by simp)]
  obtain ⟨fa⟩ := facts hca
  obtain ⟨fb⟩ := facts hcb
  have hok : blockOk a b = true := by
    have := List.all_eq_true.1 (List.all_eq_true.1 blockOk_all a ha) b hb
    rw [Bool.or_eq_true, strEq_iff] at this
    exact this.resolve_left hne
  have hcl := List.all_eq_true.1 blockClear_all a ha
  simp only [blockClear, Bool.and_eq_true, List.all_eq_true, Bool.not_eq_true'] at hcl
  have key : ∀ t, (∀ c ∈ t, c ∈ s) → respell a.core.script b.core.script t = t.map (moveBlock a b) := by
    intro t
    induction t with
    | nil => intro _; rfl
    | cons c t ih =>
      intro ht
      have ih := ih fun x hx => ht x (List.mem_cons_of_mem _ hx)
      unfold respell at ih ⊢
      rw [List.flatMap_cons, ih, List.map_cons]
      have hc := ht c List.mem_cons_self
      rcases shared_char fa fb hs hc with ⟨hl, d, hd, hi, hz⟩ | ⟨hi, hn, -⟩
      · rw [hi]
        have h1 := hr c hc hl
        have h2 := List.all_eq_true.1 hok _ hz
        simp only [Bool.or_eq_true, Bool.not_eq_true', Nat.blt_eq, Nat.ble_eq, natMem_iff, Nat.beq_eq] at h2
        rcases h2 with (((((h2 | h2) | h2) | h2) | h2) | h2) | h2
        · unfold moveBlock
          rw [if_pos ⟨h1.1, h1.2.1⟩]
          have := h1.1
          have e : c - a.base + b.base = d := by omega
          rw [e]; rfl
        · exact absurd h1.1 (by omega)
        · exact absurd h1.2.1 (by omega)
        · exact absurd h2 h1.2.2.1
        · exact absurd h2 h1.2.2.2
        · rw [natMem_iff.2 hl] at h2; cases h2
        · rw [natMem_iff.2 hd] at h2; cases h2
      · rw [hi]
        have hout : ¬ (a.base ≤ c ∧ c < a.base + 0x80) := by
          intro h
          rcases hs.source.chars c hc with h3 | h3 | h3
          · have := fa.once c h3
            obtain ⟨l, r, e, -⟩ := countIn_eq_one this
            exact hn (by rw [e]; simp)
          · have := hcl.1 c h3.1
            rw [Nat.blt_eq] at this
            omega
          · have := hcl.2 (c - a.base) (List.mem_range.2 (by omega))
            rw [neuMem_eq, show a.base + (c - a.base) = c by omega, h3] at this
            cases this
        unfold moveBlock
        rw [if_neg hout]; rfl
  rw [key s fun _ h => h]

/-! ## Example -/

example : ∃ a ∈ blocks, ∃ b ∈ blocks, a.core.script = u! "Devanagari" ∧ b.core.script = u! "Telugu" ∧
    SharedText a.core b.core gita ∧ (∀ c ∈ gita, c ∈ a.core.letters → a.regular b c) ∧
    gita.map (moveBlock a b) = u! "ధర్మక్షేత్రే కురుక్షేత్రే సమవేతా యుయుత్సవః (నమస్తే) 中文\nఋగ్వేద" := by
  refine ⟨⟨coreDevanagari, 0x900, []⟩, by simp [blocks], ⟨coreTelugu, 0xC00, [0x00, 0x01]⟩, by simp [blocks], rfl, rfl,
    gita_telugu, ?_, by decide +kernel⟩
  have : (gita.all fun c => !(natMem c coreDevanagari.letters) ||
      (Nat.ble 0x900 c && Nat.blt c 0x980 && !(natMem (c - 0x900) [0x00, 0x01]))) = true := by decide +kernel
  intro c hc hl
  have := List.all_eq_true.1 this c hc
  rw [natMem_iff.2 hl] at this
  simp only [Bool.not_true, Bool.false_or, Bool.and_eq_true, Nat.ble_eq, Nat.blt_eq, Bool.not_eq_true'] at this
  refine ⟨this.1.1, this.1.2, List.not_mem_nil, fun hm => ?_⟩
  rw [natMem_iff.2 hm] at this; cases this.2

end Verif
