import Verif.Model.GimeltraData
import Verif.Core.Prog

/-!
# gimeltra.py: Semitic transliteration through Latin
-/

namespace Verif.Gim

/-- gimeltra.py:29 `self.vocalized` -/
def vocalized : List PyStr :=
  us!["Hebr", "Hebr-Ar", "Syrj", "Syrn", "Arab-Fa", "Arab-Pa", "Latn", "Latn-No", "Type", "Arab", "Arab-Ur", "Thaa"]

/-- `d.get(k, {})` -/
def getD (d : List (PyStr × List (PyStr × PyStr))) (x : PyStr) : List (PyStr × PyStr) :=
  match dictGet? d x with
  | some l => l
  | none => []

/-- gimeltra.py:46-56 `_preprocess` -/
def preprocess (sc to_sc : PyStr) : Gen Unit := do
  forEach (getD ccmp sc) fun (i, o) => replace i o
  branch (!(pyIn sc vocalized) || !(pyIn to_sc vocalized))
    (do
      host .nfd
      reSub (u! "(?![ׄ̈])\\p{M}") (u! ""))
    (pure ())

/-- gimeltra.py:58-73 `_postprocess`; the `subf` format `{n}` is the template `\n`. -/
def postprocess (sc : PyStr) : Gen Unit := do
  forEach (getD fina sc) fun (i, o) => do
    reSub ((u! "(\\p{L})(\\p{M}*?)(") ++ i ++ (u! ")(\\p{M}*?)([^\\p{L}])")) ((u! "\\1\\2") ++ o ++ (u! "\\4\\5"))
    reSub ((u! "(\\p{L})(\\p{M}*?)(") ++ i ++ (u! ")(\\p{M}*?)$")) ((u! "\\1\\2") ++ o ++ (u! "\\4"))
    reSub ((u! "(") ++ o ++ (u! ")(\\p{M}+)(\\p{L})")) (i ++ (u! "\\2\\3"))
  forEach (getD liga sc) fun (i, o) => replace i o

/-- gimeltra.py:75-85 `_to_latin`: stable, longest key first -/
def toLatin (sc : PyStr) : Gen Unit := do
  let d ← dictGet ssub sc
  let m ← dictGet d (u! "Latn")
  forEach (sortPairsByLenDesc m) fun (c, y) => replace c y

/-- gimeltra.py:87-120 `_from_latin` -/
def fromLatin (to_sc : PyStr) : Gen Unit := do
  let d ← dictGet ssub (u! "Latn")
  let m ← dictGet d to_sc
  let chars := m.map Prod.fst
  let missing := simplify.filter fun p => !(pyIn p.1 chars)
  let virMissing := pyIn (u! "̽") (missing.map Prod.fst)
  let vir ← dictGet simplify (u! "̽")
  forEach missing fun (c, y) =>
    branch (virMissing && isInfix (u! "̽") y)
      (do
        replace c y
        replace (u! "̽") vir)
      (replace c y)
  forEach (sortPairsByLenDesc m) fun (c, y) => replace c y

/-- gimeltra.py:122-129 `_convert` -/
def convert (sc to_sc : PyStr) : Gen Unit :=
  branch (pyEq to_sc (u! "Latn"))
    (toLatin sc)
    (branch (pyEq sc (u! "Latn"))
      (fromLatin to_sc)
      (do
        toLatin sc
        fromLatin to_sc))

/-- gimeltra.py:131-142 `tr` for a given source script, with `_tr` (38-44) inlined -/
def tr (sc to_sc : PyStr) : Gen Unit :=
  branch (!(pyEq sc to_sc))
    (do
      branch (!(pyEq sc (u! "Latn"))) (preprocess sc to_sc) (pure ())
      convert sc to_sc
      postprocess to_sc)
    (pure ())

end Verif.Gim
