import Verif.Spec.CoreTable

/-!
# Specification: Unicode blocks laid out in parallel

The blocks of ten Indic scripts follow one layout (that of ISCII): a letter has the same offset in
each of them.
-/

namespace Verif

/-- A script, the first code point of its block, and the offsets where it departs from the common
layout. -/
structure Block where
  core : CoreEntry
  base : Nat
  odd : List Nat

/-- Telugu has its candrabindu at offset 0; Bengali, Assamese and Oriya have no own va at offset 35
(Assamese and Oriya: 71, Assamese ra: 70); Kannada has llla at 5E; Malayalam has the au length mark
for the sign au; Tamil has its aytam in place of the visarga. -/
def blocks : List Block := [
  ⟨coreDevanagari, 0x900, []⟩, ⟨coreBengali, 0x980, [0x35]⟩, ⟨coreAssamese, 0x980, [0x30, 0x35, 0x70, 0x71]⟩,
  ⟨coreGurmukhi, 0xA00, []⟩, ⟨coreGujarati, 0xA80, []⟩, ⟨coreOriya, 0xB00, [0x35, 0x71]⟩,
  ⟨coreTamil, 0xB80, [0x03]⟩, ⟨coreTelugu, 0xC00, [0x00, 0x01]⟩, ⟨coreKannada, 0xC80, [0x34, 0x5E, 0x71, 0x72]⟩,
  ⟨coreMalayalam, 0xD00, [0x4C, 0x57]⟩]

/-- The code point lies in the block, at an offset where neither script departs from the layout. -/
def Block.regular (a b : Block) (c : Nat) : Prop :=
  a.base ≤ c ∧ c < a.base + 0x80 ∧ c - a.base ∉ a.odd ∧ c - a.base ∉ b.odd

/-- Moves the code points of one block to the other, leaves all others alone. -/
def moveBlock (a b : Block) (c : Nat) : Nat :=
  if a.base ≤ c ∧ c < a.base + 0x80 then c - a.base + b.base else c

end Verif
