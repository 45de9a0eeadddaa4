import Verif.Spec.Neutral
import Verif.Spec.Markers

/-!
# What is assumed of Python's text operations

The model leaves `str.lower`, `str.upper`, `unicodedata.normalize` and the classes of characters open.  `Env.TextOps` lists the
facts about them that the theorems use.  All of them hold in CPython.
-/

namespace Verif

structure Env.TextOps (E : Env) : Prop where
  /-- lower-casing an ASCII name changes `A`-`Z` to `a`-`z` -/
  lower_ascii : ∀ s, (∀ c ∈ s, c < 128) → E.lower s = asciiLower s
  /-- case mapping and normalisation raise no exception -/
  total : ∀ h, h.isUnicode = true → ∀ s, ∃ s', E.host h s = .ok s'
  /-- on texts without compatibility ideographs they neither create nor lose nor move line breaks,
  Chinese characters and pictographs, and create no compatibility ideograph -/
  neutral : ∀ h, h.isUnicode = true → ∀ s s', (∀ c ∈ s, isCompat c = false) → E.host h s = .ok s' →
    neutralPart s' = neutralPart s ∧ ∀ c ∈ s', isCompat c = false
  /-- texts of such characters only are left alone -/
  fixes : ∀ h, h.isUnicode = true → ∀ s, (∀ c ∈ s, isNeutral c = true) → E.host h s = .ok s
  /-- they do not produce the private character U+F000 -/
  marker : ∀ h, h.isUnicode = true → ∀ s s', inherentMarker ∉ s → E.host h s = .ok s' → inherentMarker ∉ s'
  /-- line breaks, Chinese characters and pictographs are no combining marks -/
  marks : ∀ c, isNeutral c = true → E.uni.isMark c = false

end Verif
