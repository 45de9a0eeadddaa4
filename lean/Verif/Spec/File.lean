import Verif.Model.File

/-!
# What C30, C31, C40-C42 speak of: paths, trees, archives
-/

namespace Verif

/-- `path` is the file `stem` (not just dots) with extension `ext` (dot included) in directory `dir`
(empty, or ending in `/`).  47 is `/`, 46 is `.`. -/
structure PathParts (path dir stem ext : PyStr) : Prop where
  whole : path = dir ++ stem ++ ext
  dir_end : dir = [] ∨ ∃ d, dir = d ++ u! "/"
  no_slash : 47 ∉ stem ++ ext
  stem_name : ∃ c ∈ stem, c ≠ 46
  ext_dot : ∃ e, ext = u! "." ++ e ∧ 46 ∉ e

mutual
/-- The texts of the `w:t` elements, in document order. -/
def Xml.wordTexts : Xml → List (Option PyStr)
  | .node tag _ text _ kids =>
    (if tag = u! "{http://schemas.openxmlformats.org/wordprocessingml/2006/main}t" then [text] else []) ++ Xml.wordTextsAll kids
def Xml.wordTextsAll : List Xml → List (Option PyStr)
  | [] => []
  | k :: ks => Xml.wordTexts k ++ Xml.wordTextsAll ks
end

mutual
/-- The tree without the texts of the `w:t` elements. -/
def Xml.outline : Xml → Xml
  | .node tag attrs text tail kids =>
    .node tag attrs
      (if tag = u! "{http://schemas.openxmlformats.org/wordprocessingml/2006/main}t" then none else text) tail
      (Xml.outlineAll kids)
def Xml.outlineAll : List Xml → List Xml
  | [] => []
  | k :: ks => Xml.outline k :: Xml.outlineAll ks
end

mutual
/-- The strings of an HTML tree, in document order. -/
def Html.strings : Html → List PyStr
  | .str _ s => [s]
  | .elem _ _ kids => Html.stringsAll kids
def Html.stringsAll : List Html → List PyStr
  | [] => []
  | k :: ks => Html.strings k ++ Html.stringsAll ks
end

mutual
/-- The tree with all strings emptied and their kinds forgotten: elements, attributes, order. -/
def Html.outline : Html → Html
  | .str _ _ => .str .plain []
  | .elem name attrs kids => .elem name attrs (Html.outlineAll kids)
def Html.outlineAll : List Html → List Html
  | [] => []
  | k :: ks => Html.outline k :: Html.outlineAll ks
end

mutual
/-- The kinds of the strings of an HTML tree, in document order. -/
def Html.kinds : Html → List StrKind
  | .str k _ => [k]
  | .elem _ _ kids => Html.kindsAll kids
def Html.kindsAll : List Html → List StrKind
  | [] => []
  | k :: ks => Html.kinds k ++ Html.kindsAll ks
end

/-- The results of converting the texts one by one, in order, if none fails. -/
def Each (f : α → Except Exn β) : List α → List β → Prop
  | [], [] => True
  | a :: as, b :: bs => f a = .ok b ∧ Each f as bs
  | _, _ => False

/-- What becomes of one archive entry: the name stays; the contents stay unless it is an XML file in
folder `word`, of which the texts of the `w:t` elements, and nothing else, are replaced by what `f` gives. -/
structure EntryDone (L : FileLib) (f : Option PyStr → Except Exn (Option PyStr)) (e e' : ZipEntry) : Prop where
  name : e'.name = e.name
  other : ¬ (u! "word/" <+: e.name ∧ u! ".xml" <:+ e.name) → e'.data = e.data
  word : u! "word/" <+: e.name ∧ u! ".xml" <:+ e.name → ∃ x y, L.parseXml e.data = some x ∧ e'.data = L.printXml y ∧
    y.outline = x.outline ∧ Each f x.wordTexts y.wordTexts

/-- The entries of two archives correspond one to one, in order. -/
inductive AllEntries (R : ZipEntry → ZipEntry → Prop) : List ZipEntry → List ZipEntry → Prop
  | nil : AllEntries R [] []
  | cons {e e' es es'} : R e e' → AllEntries R es es' → AllEntries R (e :: es) (e' :: es')

end Verif
