import Verif.Spec.File

/-!
# Lemmas on file conversion
-/

namespace Verif

/-! ## `splitext` -/

theorem rsplit_none {c : Nat} {s : PyStr} : rsplit c s = none → c ∉ s := by
  induction s with
  | nil => simp
  | cons d s ih =>
    intro h
    unfold rsplit at h
    split at h
    · cases h
    · next hs =>
      split at h
      · cases h
      · next hd =>
        intro hm
        cases List.mem_cons.mp hm with
        | inl e => subst e; simp at hd
        | inr e => exact ih hs e

theorem rsplit_of_not_mem {c : Nat} {s : PyStr} (h : c ∉ s) : rsplit c s = none := by
  induction s with
  | nil => rfl
  | cons d s ih =>
    have h1 := List.not_mem_of_not_mem_cons h
    have h2 : Nat.beq d c = false := by
      cases hb : Nat.beq d c
      · rfl
      · exact absurd (List.mem_cons.mpr (.inl (Nat.eq_of_beq_eq_true hb).symm)) h
    unfold rsplit
    rw [ih h1]
    simp [h2]

theorem rsplit_spec {c : Nat} {s a b : PyStr} : rsplit c s = some (a, b) → s = a ++ b := by
  induction s generalizing a b with
  | nil => simp [rsplit]
  | cons d s ih =>
    intro h
    unfold rsplit at h
    split at h
    · next a' b' hs =>
      cases h
      rw [ih hs]
      rfl
    · split at h
      · cases h; rfl
      · cases h

theorem rsplit_append {c : Nat} {a e : PyStr} (h : c ∉ e) : rsplit c (a ++ c :: e) = some (a, c :: e) := by
  induction a with
  | nil =>
    show rsplit c (c :: e) = _
    unfold rsplit
    rw [rsplit_of_not_mem h]
    simp
  | cons d a ih =>
    show rsplit c (d :: (a ++ c :: e)) = _
    unfold rsplit
    rw [ih]

/-- The two parts are the path. -/
theorem splitExt_append (p : PyStr) : (splitExt p).1 ++ (splitExt p).2 = p := by
  unfold splitExt
  split
  · simp
  · next root ext h =>
    split
    · exact (rsplit_spec h).symm
    · simp

/-- The parts of a path. -/
theorem splitExt_parts {path dir stem ext : PyStr} (h : PathParts path dir stem ext) :
    splitExt path = (dir ++ stem, ext) := by
  obtain ⟨e, he, hne⟩ := h.ext_dot
  obtain ⟨c, hc, hcd⟩ := h.stem_name
  have hdots : notAllDots stem = true := by
    unfold notAllDots
    rw [List.any_eq_true]
    refine ⟨c, hc, ?_⟩
    cases hb : Nat.beq c 46
    · rfl
    · exact absurd (Nat.eq_of_beq_eq_true hb) hcd
  have hpath : path = (dir ++ stem) ++ 46 :: e := by rw [h.whole, he]; rfl
  have hslash : hasSlash ext = false := by
    unfold hasSlash
    rw [List.any_eq_false]
    intro x hx
    cases hb : Nat.beq x 47
    · simp
    · have := Nat.eq_of_beq_eq_true hb
      subst this
      exact absurd (List.mem_append.mpr (.inr hx)) h.no_slash
  have hs : (47 : Nat) ∉ stem := fun hm => h.no_slash (List.mem_append.mpr (.inl hm))
  have hbase : baseName (dir ++ stem) = stem := by
    unfold baseName
    rcases h.dir_end with hd | ⟨d, hd⟩
    · subst hd
      rw [List.nil_append, rsplit_of_not_mem hs]
    · subst hd
      have : d ++ (u! "/") ++ stem = d ++ 47 :: stem := by
        show d ++ [47] ++ stem = _
        simp
      rw [this, rsplit_append hs]
      rfl
  unfold splitExt
  rw [hpath, rsplit_append hne]
  have he' : (46 :: e : PyStr) = ext := he.symm
  simp only [he']
  rw [hslash, hbase, hdots]

/-! ## Writing files -/

theorem Files.set_other (fs : Files) {p q : PyStr} (b : Bytes) (h : q ≠ p) : fs.set p b q = fs q := by
  simp [Files.set, h]

theorem Files.set_same (fs : Files) (p : PyStr) (b : Bytes) : fs.set p b p = some b := by
  simp [Files.set]

theorem newName_ne (src tgt file : PyStr) : file ≠ newName src tgt file := by
  intro h
  have h1 := congrArg List.length (splitExt_append file)
  have h2 := congrArg List.length h
  simp only [newName, List.length_append, List.length_cons, List.length_nil] at h1 h2
  omega

theorem newNameDocx_ne (src tgt file : PyStr) : file ≠ newNameDocx src tgt file := by
  intro h
  have h1 := congrArg List.length (splitExt_append file)
  have h2 := congrArg List.length h
  simp only [newNameDocx, List.length_append, List.length_cons, List.length_nil] at h1 h2
  omega

theorem convertTxt_other (E : Env) (L : FileLib) (fs : Files) (src tgt file q : PyStr) (n : Bool) (pre post : List PyStr)
    (h : q ≠ newName src tgt file) : (convertTxt E L fs src tgt file n pre post).1 q = fs q := by
  unfold convertTxt
  split
  · rfl
  · split
    · exact Files.set_other _ _ h
    · exact Files.set_other _ _ h

theorem convertHtml_other (E : Env) (L : FileLib) (fs : Files) (src tgt file q : PyStr) (n : Bool) (pre post : List PyStr)
    (h : q ≠ newName src tgt file) : (convertHtml E L fs src tgt file n pre post).1 q = fs q := by
  unfold convertHtml
  split
  · rfl
  · split
    · rfl
    · exact Files.set_other _ _ h

theorem convertDocx_other (E : Env) (L : FileLib) (fs : Files) (src tgt file q : PyStr) (n : Bool) (pre post : List PyStr)
    (h : q ≠ newNameDocx src tgt file) : (convertDocx E L fs src tgt file n pre post).1 q = fs q := by
  unfold convertDocx
  split
  · rfl
  · split
    · rfl
    · exact Files.set_other _ _ h

theorem processFile_other (E : Env) (L : FileLib) (fs : Files) (src tgt file q : PyStr) (n : Bool) (pre post : List PyStr)
    (h1 : q ≠ newName src tgt file) (h2 : q ≠ newNameDocx src tgt file) :
    (processFile E L fs src tgt file n pre post).1 q = fs q := by
  unfold processFile
  split
  · rfl
  · split
    · exact convertTxt_other _ _ _ _ _ _ _ _ _ _ h1
    · exact convertDocx_other _ _ _ _ _ _ _ _ _ _ h2
    · exact convertHtml_other _ _ _ _ _ _ _ _ _ _ h1
    · rfl

/-! ## Trees -/

theorem Each.append {f : α → Except Exn β} {as as' : List α} {bs bs' : List β} :
    Each f as bs → Each f as' bs' → Each f (as ++ as') (bs ++ bs') := by
  induction as generalizing bs with
  | nil =>
    intro h h'
    cases bs with
    | nil => exact h'
    | cons b bs => exact h.elim
  | cons a as ih =>
    intro h h'
    cases bs with
    | nil => exact h.elim
    | cons b bs => exact ⟨h.1, ih h.2 h'⟩

theorem except_map_ok {f : α → β} {x : Except Exn α} {b : β} (h : x.map f = .ok b) : ∃ a, x = .ok a ∧ f a = b := by
  cases x with
  | error e => cases h
  | ok a => exact ⟨a, rfl, by injection h⟩

mutual
theorem Html.convert_spec (f : PyStr → Except Exn PyStr) : ∀ (t t' : Html), Html.convert f t = .ok t' →
    t'.outline = t.outline ∧ Each f t.strings t'.strings
  | .str k s, t', h => by
    simp only [Html.convert] at h
    obtain ⟨r, hr, rfl⟩ := except_map_ok h
    exact ⟨rfl, hr, trivial⟩
  | .elem name attrs kids, t', h => by
    simp only [Html.convert] at h
    obtain ⟨ks, hk, rfl⟩ := except_map_ok h
    obtain ⟨h1, h2⟩ := Html.convertAll_spec f kids ks hk
    refine ⟨?_, ?_⟩
    · simp only [Html.outline, h1]
    · simpa only [Html.strings] using h2
theorem Html.convertAll_spec (f : PyStr → Except Exn PyStr) : ∀ (ts ts' : List Html), Html.convertAll f ts = .ok ts' →
    Html.outlineAll ts' = Html.outlineAll ts ∧ Each f (Html.stringsAll ts) (Html.stringsAll ts')
  | [], ts', h => by
    simp only [Html.convertAll] at h
    cases h
    exact ⟨rfl, trivial⟩
  | k :: ks, ts', h => by
    simp only [Html.convertAll] at h
    cases hk : Html.convert f k with
    | error e => rw [hk] at h; cases h
    | ok k' =>
      rw [hk] at h
      obtain ⟨ks', hks, rfl⟩ := except_map_ok h
      obtain ⟨a1, a2⟩ := Html.convert_spec f k k' hk
      obtain ⟨b1, b2⟩ := Html.convertAll_spec f ks ks' hks
      refine ⟨?_, ?_⟩
      · simp only [Html.outlineAll, a1, b1]
      · simp only [Html.stringsAll]
        exact a2.append b2
end

theorem strEq_wordText (tag : PyStr) : strEq tag wordText = decide (tag = wordText) := by
  cases h : strEq tag wordText
  · rw [eq_comm, decide_eq_false_iff_not]
    intro he
    rw [strEq_iff.mpr he] at h
    cases h
  · simp [strEq_iff.mp h]

mutual
theorem Xml.convert_spec (f : Option PyStr → Except Exn (Option PyStr)) : ∀ (t t' : Xml), Xml.convert f t = .ok t' →
    t'.outline = t.outline ∧ Each f t.wordTexts t'.wordTexts
  | .node tag attrs text tail kids, t', h => by
    simp only [Xml.convert] at h
    rw [strEq_wordText] at h
    by_cases ht : tag = wordText
    · rw [decide_eq_true ht] at h
      simp only at h
      cases hf : f text with
      | error e => rw [hf] at h; cases h
      | ok r =>
        rw [hf] at h
        obtain ⟨ks, hk, rfl⟩ := except_map_ok h
        obtain ⟨h1, h2⟩ := Xml.convertAll_spec f kids ks hk
        have ht' := ht
        unfold wordText at ht'
        refine ⟨?_, ?_⟩
        · simp only [Xml.outline, h1, if_pos ht']
        · simp only [Xml.wordTexts, if_pos ht']
          exact Each.append (as := [text]) (bs := [r]) ⟨hf, trivial⟩ h2
    · rw [decide_eq_false ht] at h
      simp only at h
      obtain ⟨ks, hk, rfl⟩ := except_map_ok h
      obtain ⟨h1, h2⟩ := Xml.convertAll_spec f kids ks hk
      have ht' := ht
      unfold wordText at ht'
      refine ⟨?_, ?_⟩
      · simp only [Xml.outline, h1, if_neg ht']
      · simp only [Xml.wordTexts, if_neg ht']
        exact h2
theorem Xml.convertAll_spec (f : Option PyStr → Except Exn (Option PyStr)) : ∀ (ts ts' : List Xml), Xml.convertAll f ts = .ok ts' →
    Xml.outlineAll ts' = Xml.outlineAll ts ∧ Each f (Xml.wordTextsAll ts) (Xml.wordTextsAll ts')
  | [], ts', h => by
    simp only [Xml.convertAll] at h
    cases h
    exact ⟨rfl, trivial⟩
  | k :: ks, ts', h => by
    simp only [Xml.convertAll] at h
    cases hk : Xml.convert f k with
    | error e => rw [hk] at h; cases h
    | ok k' =>
      rw [hk] at h
      obtain ⟨ks', hks, rfl⟩ := except_map_ok h
      obtain ⟨a1, a2⟩ := Xml.convert_spec f k k' hk
      obtain ⟨b1, b2⟩ := Xml.convertAll_spec f ks ks' hks
      refine ⟨?_, ?_⟩
      · simp only [Xml.outlineAll, a1, b1]
      · simp only [Xml.wordTextsAll]
        exact a2.append b2
end

/-! ## Archives -/

theorem find_unique {l : List ZipEntry} (hu : (l.map ZipEntry.name).Nodup) {e : ZipEntry} (he : e ∈ l) :
    l.find? (fun x => strEq x.name e.name) = some e := by
  induction l with
  | nil => cases he
  | cons a l ih =>
    simp only [List.map_cons, List.nodup_cons] at hu
    cases List.mem_cons.mp he with
    | inl h =>
      subst h
      simp [List.find?_cons, strEq_iff.mpr rfl]
    | inr h =>
      have hne : strEq a.name e.name = false := by
        cases hb : strEq a.name e.name
        · rfl
        · exact absurd (List.mem_map.mpr ⟨e, h, (strEq_iff.mp hb).symm⟩) hu.1
      rw [List.find?_cons, hne]
      exact ih hu.2 h

theorem readEntry_unique {l : List ZipEntry} (hu : (l.map ZipEntry.name).Nodup) {e : ZipEntry} (he : e ∈ l) :
    readEntry l e.name = e.data := by
  unfold readEntry
  have hu' : (l.reverse.map ZipEntry.name).Nodup := by
    rw [List.map_reverse]
    exact (List.reverse_perm _).nodup_iff.mpr hu
  rw [find_unique hu' (List.mem_reverse.mpr he)]

theorem isWordPart_iff (n : PyStr) : isWordPart n = true ↔ (u! "word/" <+: n ∧ u! ".xml" <:+ n) := by
  unfold isWordPart
  simp [List.isPrefixOf_iff_prefix, List.isSuffixOf_iff_suffix]

theorem convertEntry_done {E : Env} {L : FileLib} {src tgt : PyStr} {n : Bool} {pre post : List PyStr} {old : List ZipEntry}
    (hu : (old.map ZipEntry.name).Nodup) {e e' : ZipEntry} (he : e ∈ old)
    (h : convertEntry E L src tgt n pre post old e = .ok e') :
    EntryDone L (convertMaybe E src tgt n post pre) e e' := by
  unfold convertEntry at h
  cases hw : isWordPart e.name with
  | false =>
    rw [hw] at h
    cases h
    refine ⟨rfl, fun _ => readEntry_unique hu he, fun hc => ?_⟩
    rw [(isWordPart_iff _).mpr hc] at hw
    cases hw
  | true =>
    rw [hw] at h
    refine ⟨?_, fun hc => absurd ((isWordPart_iff _).mp hw) hc, fun _ => ?_⟩
    · simp only at h
      split at h
      · cases h
      · obtain ⟨y, _, rfl⟩ := except_map_ok h
        rfl
    · simp only at h
      split at h
      · cases h
      · next x hx =>
        obtain ⟨y, hy, rfl⟩ := except_map_ok h
        obtain ⟨h1, h2⟩ := Xml.convert_spec _ x y hy
        exact ⟨x, y, hx, rfl, h1, h2⟩

theorem convertEntries_done {E : Env} {L : FileLib} {src tgt : PyStr} {n : Bool} {pre post : List PyStr} {old : List ZipEntry}
    (hu : (old.map ZipEntry.name).Nodup) : ∀ {es es' : List ZipEntry}, (∀ e ∈ es, e ∈ old) →
    convertEntries E L src tgt n pre post old es = .ok es' →
    AllEntries (EntryDone L (convertMaybe E src tgt n post pre)) es es'
  | [], _, _, h => by cases h; exact .nil
  | e :: es, es', hm, h => by
    simp only [convertEntries] at h
    split at h
    · cases h
    · next e1 he1 =>
      obtain ⟨es1, hes1, rfl⟩ := except_map_ok h
      exact .cons (convertEntry_done hu (hm e (List.mem_cons_self ..)) he1)
        (convertEntries_done hu (fun x hx => hm x (List.mem_cons_of_mem _ hx)) hes1)

end Verif
