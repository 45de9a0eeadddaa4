import Verif.Lib.File
import Verif.Lib.PlainUse
import Verif.Lib.SampleEnv

/-!
# File conversion (C30, C31, C40–C42)

For all libraries, file systems, paths, scripts and option lists.
-/

namespace Verif

/-! ## A sample library and file system -/

/-- Text is stored as code points; one archive, with one XML part and one other entry; one HTML tree. -/
def sampleXml : Xml :=
  .node (u! "document") [] none none
    [.node (u! "{http://schemas.openxmlformats.org/wordprocessingml/2006/main}t") [(u! "space", u! "preserve")] (some (u! "ख")) (some (u! "क")) [],
     .node (u! "author") [] (some (u! "क")) none []]

def sampleEntries : List ZipEntry := [⟨u! "word/document.xml", u! "xml"⟩, ⟨u! "word/media/image.png", [1, 2]⟩]

def sampleHtml : Html :=
  .elem (u! "p") [(u! "title", u! "ख")] [.str .comment (u! "ख"), .elem (u! "b") [] [.str .plain (u! "क")]]

def sampleLib : FileLib where
  readText := some
  writeText := id
  readZip b := if b = u! "zip" then some sampleEntries else none
  writeZip es := es.flatMap fun e => e.name ++ e.data
  parseXml b := if b = u! "xml" then some sampleXml else none
  printXml x := x.wordTexts.flatMap fun t => t.getD []
  parseHtml _ := sampleHtml
  prettify t := (t.kinds.flatMap fun k => if k = .comment then u! "!" else u! ".") ++ t.strings.flatten

def sampleFiles : Files
  | p => if p = u! "dir/a.txt" then some (u! "ख") else if p = u! "dir/a.docx" then some (u! "zip")
    else if p = u! "a.html" then some (u! "<p>") else none

theorem samplePath : PathParts (u! "dir/a.txt") (u! "dir/") (u! "a") (u! ".txt") where
  whole := rfl
  dir_end := .inr ⟨u! "dir", rfl⟩
  no_slash := by decide
  stem_name := ⟨97, by decide, by decide⟩
  ext_dot := ⟨u! "txt", rfl, by decide⟩

/-! ## C30: what is written -/

/-- **C30**. Whatever happens, no file other than `stem_SourceTarget.ext` and `stem_Source_Target.ext`
in the directory of the input changes. -/
theorem C30_other_files_kept (E : Env) (L : FileLib) (fs : Files) (src tgt : PyStr) (nativize : Bool) (pre post : List PyStr)
    (file dir stem ext : PyStr) (hp : PathParts file dir stem ext) (other : PyStr)
    (h1 : other ≠ dir ++ stem ++ u! "_" ++ src ++ tgt ++ ext)
    (h2 : other ≠ dir ++ stem ++ u! "_" ++ src ++ u! "_" ++ tgt ++ ext) :
    (processFile E L fs src tgt file nativize pre post).1 other = fs other := by
  apply processFile_other
  · rw [newName, splitExt_parts hp]; exact h1
  · rw [newNameDocx, splitExt_parts hp]; exact h2

example : PathParts (u! "dir/a.txt") (u! "dir/") (u! "a") (u! ".txt")
    ∧ (u! "dir/b.txt" : PyStr) ≠ u! "dir/" ++ u! "a" ++ u! "_" ++ u! "Devanagari" ++ u! "Tamil" ++ u! ".txt"
    ∧ (u! "dir/b.txt" : PyStr) ≠ u! "dir/" ++ u! "a" ++ u! "_" ++ u! "Devanagari" ++ u! "_" ++ u! "Tamil" ++ u! ".txt" :=
  ⟨samplePath, by decide, by decide⟩

/-- **C30**. The input file is never changed, whatever its name and whatever happens. -/
theorem C30_input_kept (E : Env) (L : FileLib) (fs : Files) (src tgt : PyStr) (nativize : Bool) (pre post : List PyStr)
    (file : PyStr) : (processFile E L fs src tgt file nativize pre post).1 file = fs file :=
  processFile_other _ _ _ _ _ _ _ _ _ _ (newName_ne _ _ _) (newNameDocx_ne _ _ _)

/-- **C30**. A path that is no file, or has none of the known extensions, changes nothing. -/
theorem C30_unsupported (E : Env) (L : FileLib) (fs : Files) (src tgt : PyStr) (nativize : Bool) (pre post : List PyStr)
    (file : PyStr) (h : fs file = none ∨ ¬ (u! ".txt" <:+: file ∨ u! ".docx" <:+: file ∨ u! ".htm" <:+: file)) :
    processFile E L fs src tgt file nativize pre post = (fs, .ok ()) := by
  unfold processFile
  cases hf : fs file with
  | none => rfl
  | some b =>
    have h := h.resolve_left (by rw [hf]; simp)
    have f1 : isInfix (u! ".txt") file = false := by
      rw [← Bool.not_eq_true]
      exact fun hh => h (.inl (isInfix_iff.1 hh))
    have f2 : isInfix (u! ".docx") file = false := by
      rw [← Bool.not_eq_true]
      exact fun hh => h (.inr (.inl (isInfix_iff.1 hh)))
    have f3 : isInfix (u! ".htm") file = false := by
      rw [← Bool.not_eq_true]
      exact fun hh => h (.inr (.inr (isInfix_iff.1 hh)))
    rw [f1, f2, f3]

example : sampleFiles (u! "dir/none.txt") = none ∧
    ¬ (u! ".txt" <:+: u! "dir/a.pdf" ∨ u! ".docx" <:+: u! "dir/a.pdf" ∨ u! ".htm" <:+: u! "dir/a.pdf") := by decide

/-- **C30**. A text file is converted as its text is by `process`, into `stem_SourceTarget.txt`. -/
theorem C30_txt (E : Env) (hE : E.TextOps) (L : FileLib) (fs : Files) (src tgt : PyStr)
    (hs : src ∈ sourceScripts) (ht : tgt ∈ targetScripts) (nativize : Bool)
    (file dir stem : PyStr) (hp : PathParts file dir stem (u! ".txt")) (b : Bytes) (text result : PyStr)
    (hb : fs file = some b) (hr : L.readText b = some text)
    (hc : process E src tgt text nativize [] [] (u! "default") = .ok (some result)) :
    processFile E L fs src tgt file nativize [] []
      = (fs.set (dir ++ stem ++ u! "_" ++ src ++ tgt ++ u! ".txt") (L.writeText result), .ok ()) := by
  have hi : isInfix (u! ".txt") file = true := by
    rw [isInfix_iff, hp.whole]
    exact ⟨dir ++ stem, [], by simp⟩
  rw [process_plain hE hs ht] at hc
  obtain ⟨r, h1, h2⟩ := except_map_ok hc
  cases h2
  unfold processFile convertTxt convertText
  rw [hb, hi]
  simp only [Option.bind_some, hr, h1]
  rw [newName, splitExt_parts hp]

example : process sampleEnv (u! "Devanagari") (u! "Tamil") (u! "ख") false [] [] (u! "default") = .ok (some (u! "க²"))
    ∧ sampleFiles (u! "dir/a.txt") = some (u! "ख")
    ∧ (processFile sampleEnv sampleLib sampleFiles (u! "Devanagari") (u! "Tamil") (u! "dir/a.txt") false).1
        (u! "dir/a_DevanagariTamil.txt") = some (u! "க²") := by decide +kernel

/-- **C30**. A docx file (without repeated entry names) is converted into `stem_Source_Target.docx`: an
archive with the same entries in the same order; all but the XML parts of folder `word` are unchanged, and
of these all but the texts of `w:t` elements, which are replaced by their conversions.
(The option lists are exchanged: C31.) -/
theorem C30_docx (E : Env) (L : FileLib) (fs fs' : Files) (src tgt : PyStr) (nativize : Bool) (pre post : List PyStr)
    (file dir stem : PyStr) (hp : PathParts file dir stem (u! ".docx")) (hn : ¬ u! ".txt" <:+: file)
    (b : Bytes) (old : List ZipEntry) (hb : fs file = some b) (hr : L.readZip b = some old)
    (hu : (old.map ZipEntry.name).Nodup)
    (h : processFile E L fs src tgt file nativize pre post = (fs', .ok ())) :
    ∃ new, fs' = fs.set (dir ++ stem ++ u! "_" ++ src ++ u! "_" ++ tgt ++ u! ".docx") (L.writeZip new)
      ∧ AllEntries (EntryDone L (convertMaybe E src tgt nativize post pre)) old new := by
  have hi : isInfix (u! ".docx") file = true := by
    rw [isInfix_iff, hp.whole]
    exact ⟨dir ++ stem, [], by simp⟩
  have hi' : isInfix (u! ".txt") file = false := by
    rw [← Bool.not_eq_true]
    exact fun hh => hn (isInfix_iff.1 hh)
  unfold processFile convertDocx at h
  rw [hb, hi, hi'] at h
  simp only [Option.bind_some, hr] at h
  split at h
  · cases congrArg Prod.snd h
  · next new hnew =>
    refine ⟨new, ?_, convertEntries_done hu (fun _ h => h) hnew⟩
    have := congrArg Prod.fst h
    simp only at this
    rw [← this, newNameDocx, splitExt_parts hp]

example : sampleFiles (u! "dir/a.docx") = some (u! "zip") ∧ sampleLib.readZip (u! "zip") = some sampleEntries
    ∧ (sampleEntries.map ZipEntry.name).Nodup ∧ ¬ u! ".txt" <:+: u! "dir/a.docx"
    ∧ (processFile sampleEnv sampleLib sampleFiles (u! "Devanagari") (u! "Tamil") (u! "dir/a.docx") false).2 = .ok ()
    ∧ (processFile sampleEnv sampleLib sampleFiles (u! "Devanagari") (u! "Tamil") (u! "dir/a.docx") false).1
        (u! "dir/a_Devanagari_Tamil.docx") = some (u! "word/document.xmlக²word/media/image.png" ++ [1, 2]) := by
  decide +kernel

/-! ## C31: options of docx conversions -/

/-- **C31 is false**: the post-option `TamilRemoveNumbers`, obeyed for a text file, raises `AttributeError`
for a docx file of the same text, as it is looked up among the pre-options. -/
theorem C31_violated :
    ((processFile sampleEnv sampleLib sampleFiles (u! "Devanagari") (u! "Tamil") (u! "dir/a.txt") false []
        us!["TamilRemoveNumbers"]).1 (u! "dir/a_DevanagariTamil.txt") = some (u! "க"))
    ∧ (processFile sampleEnv sampleLib sampleFiles (u! "Devanagari") (u! "Tamil") (u! "dir/a.docx") false []
        us!["TamilRemoveNumbers"]).2 = .error .attributeError
    ∧ (processFile sampleEnv sampleLib sampleFiles (u! "Devanagari") (u! "Tamil") (u! "dir/a.docx") false
        us!["TamilRemoveNumbers"] []).1 (u! "dir/a_Devanagari_Tamil.docx")
          = some (u! "word/document.xmlகword/media/image.png" ++ [1, 2]) := by
  decide +kernel

/-- What the code does instead of **C31**: with the two lists exchanged, the texts of the document are
converted with the options as given. -/
theorem C31_options_exchanged (E : Env) (L : FileLib) (fs fs' : Files) (src tgt : PyStr) (nativize : Bool) (pre post : List PyStr)
    (file dir stem : PyStr) (hp : PathParts file dir stem (u! ".docx")) (hn : ¬ u! ".txt" <:+: file)
    (b : Bytes) (old : List ZipEntry) (hb : fs file = some b) (hr : L.readZip b = some old)
    (hu : (old.map ZipEntry.name).Nodup)
    (h : processFile E L fs src tgt file nativize post pre = (fs', .ok ())) :
    ∃ new, fs' = fs.set (dir ++ stem ++ u! "_" ++ src ++ u! "_" ++ tgt ++ u! ".docx") (L.writeZip new)
      ∧ AllEntries (EntryDone L (convertMaybe E src tgt nativize pre post)) old new :=
  C30_docx E L fs fs' src tgt nativize post pre file dir stem hp hn b old hb hr hu h

/-- **C31** for equal lists, in particular without options.  Missing: different lists, for which it is
false. -/
theorem C31_equal_lists_partial (E : Env) (L : FileLib) (fs fs' : Files) (src tgt : PyStr) (nativize : Bool) (pre post : List PyStr)
    (file dir stem : PyStr) (hp : PathParts file dir stem (u! ".docx")) (hn : ¬ u! ".txt" <:+: file)
    (b : Bytes) (old : List ZipEntry) (hb : fs file = some b) (hr : L.readZip b = some old)
    (hu : (old.map ZipEntry.name).Nodup) (he : pre = post)
    (h : processFile E L fs src tgt file nativize pre post = (fs', .ok ())) :
    ∃ new, fs' = fs.set (dir ++ stem ++ u! "_" ++ src ++ u! "_" ++ tgt ++ u! ".docx") (L.writeZip new)
      ∧ AllEntries (EntryDone L (convertMaybe E src tgt nativize pre post)) old new := by
  subst he
  exact C30_docx E L fs fs' src tgt nativize pre pre file dir stem hp hn b old hb hr hu h

/-! ## C40: HTML -/

/-- **C40** (elements, attributes, order and texts). Of an HTML file only the strings change, each into
its conversion.  Missing: comments, doctype and the like stay what they are, which is false. -/
theorem C40_html_partial (E : Env) (L : FileLib) (fs fs' : Files) (src tgt : PyStr) (nativize : Bool) (pre post : List PyStr)
    (file dir stem ext : PyStr) (hp : PathParts file dir stem ext) (hx : u! ".htm" <:+: ext)
    (hn : ¬ u! ".txt" <:+: file) (hn' : ¬ u! ".docx" <:+: file)
    (b : Bytes) (html : PyStr) (hb : fs file = some b) (hr : L.readText b = some html)
    (h : processFile E L fs src tgt file nativize pre post = (fs', .ok ())) :
    ∃ new, fs' = fs.set (dir ++ stem ++ u! "_" ++ src ++ tgt ++ ext) (L.writeText (L.prettify new))
      ∧ new.outline = (L.parseHtml html).outline
      ∧ Each (convertText E src tgt nativize pre post) (L.parseHtml html).strings new.strings := by
  have hi : isInfix (u! ".htm") file = true := by
    rw [isInfix_iff, hp.whole]
    obtain ⟨s, t, hst⟩ := hx
    exact ⟨dir ++ stem ++ s, t, by simp [← hst]⟩
  have hi' : isInfix (u! ".txt") file = false := by
    rw [← Bool.not_eq_true]
    exact fun hh => hn (isInfix_iff.1 hh)
  have hi'' : isInfix (u! ".docx") file = false := by
    rw [← Bool.not_eq_true]
    exact fun hh => hn' (isInfix_iff.1 hh)
  unfold processFile convertHtml at h
  rw [hb, hi, hi', hi''] at h
  simp only [Option.bind_some, hr] at h
  split at h
  · cases congrArg Prod.snd h
  · next new hnew =>
    obtain ⟨h1, h2⟩ := Html.convert_spec _ _ _ hnew
    refine ⟨new, ?_, h1, h2⟩
    have := congrArg Prod.fst h
    simp only at this
    rw [← this, newName, splitExt_parts hp]

/-- A comment comes out as text of the page. -/
theorem C40_violated :
    sampleHtml.kinds = [.comment, .plain]
    ∧ (Html.convert (convertText sampleEnv (u! "Devanagari") (u! "Tamil") false [] []) sampleHtml).toOption.map Html.kinds
      = some [.plain, .plain]
    ∧ (processFile sampleEnv sampleLib sampleFiles (u! "Devanagari") (u! "Tamil") (u! "a.html") false).2 = .ok ()
    ∧ (processFile sampleEnv sampleLib sampleFiles (u! "Devanagari") (u! "Tamil") (u! "a.html") false).1
        (u! "a_DevanagariTamil.html") = some (u! "..க²க") := by
  decide +kernel

/-! ## C41: failures -/

/-- **C41** for docx and HTML: a conversion that fails writes nothing.  Missing: text files, for which
it is false. -/
theorem C41_failure_writes_nothing_partial (E : Env) (L : FileLib) (fs fs' : Files) (src tgt : PyStr) (nativize : Bool)
    (pre post : List PyStr) (file : PyStr) (hn : ¬ u! ".txt" <:+: file) (e : Exn)
    (h : processFile E L fs src tgt file nativize pre post = (fs', .error e)) : fs' = fs := by
  have hi' : isInfix (u! ".txt") file = false := by
    rw [← Bool.not_eq_true]
    exact fun hh => hn (isInfix_iff.1 hh)
  unfold processFile at h
  rw [hi'] at h
  split at h
  · exact (congrArg Prod.fst h).symm
  · split at h
    · next hc => cases hc
    · unfold convertDocx at h
      split at h
      · exact (congrArg Prod.fst h).symm
      · split at h
        · exact (congrArg Prod.fst h).symm
        · cases congrArg Prod.snd h
    · unfold convertHtml at h
      split at h
      · exact (congrArg Prod.fst h).symm
      · split at h
        · exact (congrArg Prod.fst h).symm
        · cases congrArg Prod.snd h
    · exact (congrArg Prod.fst h).symm

example : (processFile sampleEnv sampleLib sampleFiles (u! "Devanagari") (u! "Tamil") (u! "dir/a.docx") false []
    us!["TamilRemoveNumbers"]).2 = .error .attributeError := by decide +kernel

/-- **C41 is false**: an unknown option, which `process` ignores, makes the conversion of a text file fail;
an output file that was there before is emptied. -/
theorem C41_violated :
    process sampleEnv (u! "Devanagari") (u! "Tamil") (u! "ख") false [] us!["unknown"] (u! "default") = .ok (some (u! "க²"))
    ∧ (processFile sampleEnv sampleLib (sampleFiles.set (u! "dir/a_DevanagariTamil.txt") (u! "க²")) (u! "Devanagari") (u! "Tamil")
        (u! "dir/a.txt") false [] us!["unknown"]).2 = .error .attributeError
    ∧ (processFile sampleEnv sampleLib (sampleFiles.set (u! "dir/a_DevanagariTamil.txt") (u! "க²")) (u! "Devanagari") (u! "Tamil")
        (u! "dir/a.txt") false [] us!["unknown"]).1 (u! "dir/a_DevanagariTamil.txt") = some [] := by
  decide +kernel

/-! ## C42: names of output files -/

/-- The names of all scripts. -/
def scriptNames : List PyStr := GM.IndicScripts ++ GM.LatinScripts ++ GM.SemiticScripts

/-- **C42** for docx: conversions of one file between different pairs of scripts are written to
different files. -/
theorem C42_docx_names_differ (file src tgt src' tgt' : PyStr) (h : src ∈ scriptNames) (h' : src' ∈ scriptNames)
    (he : newNameDocx src tgt file = newNameDocx src' tgt' file) : src = src' ∧ tgt = tgt' := by
  have key : ∀ a b c d : PyStr, (95 : Nat) ∉ a → (95 : Nat) ∉ c → a ++ 95 :: b = c ++ 95 :: d → a = c ∧ b = d := by
    intro a b c d
    induction a generalizing c with
    | nil =>
      intro _ hc h
      cases c with
      | nil => exact ⟨rfl, by injection h⟩
      | cons x c =>
        injection h with h1 h2
        exact absurd (h1 ▸ List.mem_cons_self ..) hc
    | cons x a ih =>
      intro ha hc h
      cases c with
      | nil =>
        injection h with h1 h2
        exact absurd (h1 ▸ List.mem_cons_self ..) ha
      | cons y c =>
        injection h with h1 h2
        obtain ⟨e1, e2⟩ := ih c (List.not_mem_of_not_mem_cons ha) (List.not_mem_of_not_mem_cons hc) h2
        exact ⟨by rw [h1, e1], e2⟩
  have hno : ∀ s ∈ scriptNames, (95 : Nat) ∉ s := by decide +kernel
  have he1 : (splitExt file).1 ++ (u! "_" ++ (src ++ 95 :: tgt) ++ (splitExt file).2)
      = (splitExt file).1 ++ (u! "_" ++ (src' ++ 95 :: tgt') ++ (splitExt file).2) := by
    simpa [newNameDocx] using he
  have he2 := List.append_cancel_left he1
  have he3 := List.append_cancel_left (List.append_cancel_right he2)
  exact key _ _ _ _ (hno _ h) (hno _ h') he3

/-- **C42 is false** for text and HTML files: source and target are not separated. -/
theorem C42_violated : ∀ file, (u! "Siddham" ∈ scriptNames ∧ u! "DevanagariRomanLoC" ∈ scriptNames
    ∧ u! "SiddhamDevanagari" ∈ scriptNames ∧ u! "RomanLoC" ∈ scriptNames)
    ∧ newName (u! "Siddham") (u! "DevanagariRomanLoC") file = newName (u! "SiddhamDevanagari") (u! "RomanLoC") file := by
  intro file
  refine ⟨by decide +kernel, ?_⟩
  simp [newName]

/-- What follows `a` in `b`, if `b` begins with `a`. -/
def restAfter : PyStr → PyStr → Option PyStr
  | [], b => some b
  | _ :: _, [] => none
  | x :: a, y :: b =>
    match Nat.beq x y with
    | true => restAfter a b
    | false => none

theorem restAfter_append (a r : PyStr) : restAfter a (a ++ r) = some r := by
  induction a with
  | nil => rfl
  | cons x a ih =>
    show (match Nat.beq x x with | true => restAfter a (a ++ r) | false => none) = _
    rw [Nat.beq_refl]
    exact ih

/-- A name `a ++ r` (with `r` not empty) and a name `r ++ b` with `b` a name: only the clash above. -/
theorem name_clashes : (scriptNames.all fun a => scriptNames.all fun a' =>
    match restAfter a a' with
    | none => true
    | some r => r.isEmpty || scriptNames.all fun b =>
      match restAfter r b with
      | none => true
      | some b' => !(strMem b' scriptNames) || (strEq a (u! "Siddham") && strEq b (u! "DevanagariRomanLoC"))) = true := by
  decide +kernel

/-- **C42** for text and HTML files, but for the one clash. -/
theorem C42_names_differ_partial (file src tgt src' tgt' : PyStr) (hs : src ∈ scriptNames) (ht : tgt ∈ scriptNames)
    (hs' : src' ∈ scriptNames) (ht' : tgt' ∈ scriptNames)
    (hne : ¬ (src = u! "Siddham" ∧ tgt = u! "DevanagariRomanLoC" ∨ src' = u! "Siddham" ∧ tgt' = u! "DevanagariRomanLoC"))
    (he : newName src tgt file = newName src' tgt' file) : src = src' ∧ tgt = tgt' := by
  have he1 : (splitExt file).1 ++ (u! "_" ++ (src ++ tgt) ++ (splitExt file).2)
      = (splitExt file).1 ++ (u! "_" ++ (src' ++ tgt') ++ (splitExt file).2) := by
    simpa [newName] using he
  have he3 := List.append_cancel_left (List.append_cancel_right (List.append_cancel_left he1))
  have key : ∀ a b a' b' : PyStr, a ∈ scriptNames → b ∈ scriptNames → a' ∈ scriptNames → b' ∈ scriptNames →
      ∀ r, a' = a ++ r → b = r ++ b' → (a = a' ∧ b = b') ∨ (a = u! "Siddham" ∧ b = u! "DevanagariRomanLoC") := by
    intro a b a' b' ha hb ha' hb' r h1 h2
    have hc := List.all_eq_true.1 (List.all_eq_true.1 name_clashes a ha) a' ha'
    rw [h1, restAfter_append] at hc
    cases r with
    | nil =>
      refine .inl ⟨by rw [h1, List.append_nil], h2⟩
    | cons x r =>
      have hc' := List.all_eq_true.1 hc b hb
      rw [h2, restAfter_append] at hc'
      simp only [strMem_iff.2 hb'] at hc'
      simp only [Bool.not_true, Bool.false_or, Bool.and_eq_true, strEq_iff] at hc'
      exact .inr ⟨hc'.1, by rw [h2]; exact hc'.2⟩
  rcases List.append_eq_append_iff.1 he3 with ⟨r, h1, h2⟩ | ⟨r, h1, h2⟩
  · cases key src tgt src' tgt' hs ht hs' ht' r h1 h2 with
    | inl h => exact h
    | inr h => exact absurd (.inl h) hne
  · cases key src' tgt' src tgt hs' ht' hs ht r h1 h2 with
    | inl h => exact ⟨h.1.symm, h.2.symm⟩
    | inr h => exact absurd (.inr h) hne

example : u! "Devanagari" ∈ scriptNames ∧ u! "Tamil" ∈ scriptNames
    ∧ newName (u! "Devanagari") (u! "Tamil") (u! "dir.d/a.b.txt") = u! "dir.d/a.b_DevanagariTamil.txt"
    ∧ newNameDocx (u! "Devanagari") (u! "Tamil") (u! "x/a.docx") = u! "x/a_Devanagari_Tamil.docx"
    ∧ newName (u! "Devanagari") (u! "Tamil") (u! "dir.d/.txt") = u! "dir.d/.txt_DevanagariTamil" := by decide +kernel

end Verif
