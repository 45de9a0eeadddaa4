import Verif.Lib.RomanOut
import Verif.Spec.CoreTable

namespace Verif

/-- The script fits the romanisation (`m`: the characters of spellings that are letters). -/
def fitAt (m : Nat) (e : CoreEntry) (r : RomanEntry) : Bool :=
  match Nat.beq m 0 with
  | true => true
  | false => match clashOk e.script r.script with
    | true => true
    | false => match fitsFast m e.script r.script with
      | true => true
      | false => fitsOk e r

/-- All scripts fit the romanisation, except for those listed. -/
def fitsAllOk : Bool :=
  withMasks (fun e => singles (letterList e.script)) coreTable fun es =>
    romanTable.all fun r => withNat (maskOf (spellChars r)) fun n =>
      es.all fun a => withNat (Nat.land a.1 n) fun m => fitAt m a.2 r

set_option maxRecDepth 100000 in
theorem fitsAll_ok : fitsAllOk = true := by decide +kernel

theorem fits_of {e : CoreEntry} (he : e ∈ coreTable) {r : RomanEntry} (hr : r ∈ romanTable)
    (ha : Apt e.script r.script) : Fits e r := by
  have hk := fitsAll_ok
  unfold fitsAllOk at hk
  rw [withMasks_eq, List.all_eq_true] at hk
  have hk := hk r hr
  rw [withNat_eq, List.all_eq_true] at hk
  have hk := hk _ (List.mem_map_of_mem he)
  rw [withNat_eq] at hk
  unfold fitAt at hk
  dsimp only at hk
  split at hk
  · rename_i h
    apply fitsFast_sound
    rw [Nat.eq_of_beq_eq_true h]
    exact fitsFast_zero _ _
  · rw [clashOk_iff.2 ha] at hk
    dsimp only at hk
    split at hk
    · rename_i h; exact fitsFast_sound h
    · exact fitsOk_sound hk

end Verif
