import Verif.Model.Process

/-!
# transliterate_file.py: conversion of .txt, .docx and .html files

`is_api_mode=False`.  The libraries are parameters (`FileLib`): text decoding and encoding, zip
archives, XML and HTML parsing and printing.
-/

namespace Verif

/-- File contents. -/
abbrev Bytes := List Nat

/-- An XML element as `lxml` has it: `text` precedes the children, `tail` follows the element;
`None` if there is no text there.  Comments and processing instructions are elements whose tag is
no name (here: empty). -/
inductive Xml where
  | node (tag : PyStr) (attrs : List (PyStr × PyStr)) (text tail : Option PyStr) (kids : List Xml)

/-- What kind of string a BeautifulSoup string is. -/
inductive StrKind where
  | plain | comment | doctype | cdata | script | style
  deriving DecidableEq, Repr

/-- A BeautifulSoup tree. -/
inductive Html where
  | str (kind : StrKind) (s : PyStr)
  | elem (name : PyStr) (attrs : List (PyStr × PyStr)) (kids : List Html)

/-- An archive entry: the name and the contents. -/
structure ZipEntry where
  name : PyStr
  data : Bytes
  deriving DecidableEq

/-- The libraries. -/
structure FileLib where
  /-- `open(f, 'r', encoding='utf8').read()`; `none`: an exception -/
  readText : Bytes → Option PyStr
  /-- `open(f, 'w', encoding='utf8').write(s)` -/
  writeText : PyStr → Bytes
  /-- the entries of `ZipFile(f, 'r').filelist` -/
  readZip : Bytes → Option (List ZipEntry)
  /-- an archive with the given entries -/
  writeZip : List ZipEntry → Bytes
  /-- `etree.parse` -/
  parseXml : Bytes → Option Xml
  /-- `etree.tostring` -/
  printXml : Xml → Bytes
  /-- `BeautifulSoup(html)` -/
  parseHtml : PyStr → Html
  /-- `soup.prettify()` -/
  prettify : Html → PyStr

/-- The files. -/
abbrev Files := PyStr → Option Bytes

/-- Write a file. -/
def Files.set (fs : Files) (p : PyStr) (b : Bytes) : Files := fun q => if q = p then some b else fs q

/-- Whether a character other than `.` occurs. -/
def notAllDots (s : PyStr) : Bool := s.any fun c => !(Nat.beq c 46)

/-- Python's `s.rfind(c)`: what precedes the last `c` and what follows from it on; `none` if absent. -/
def rsplit (c : Nat) : PyStr → Option (PyStr × PyStr)
  | [] => none
  | d :: s =>
    match rsplit c s with
    | some (a, b) => some (d :: a, b)
    | none => match Nat.beq d c with
      | true => some ([], d :: s)
      | false => none

/-- `'/' in s` -/
def hasSlash (s : PyStr) : Bool := s.any fun c => Nat.beq c 47

/-- What follows the last `/`. -/
def baseName (p : PyStr) : PyStr :=
  match rsplit 47 p with
  | some (_, f) => f.drop 1
  | none => p

/-- `os.path.splitext`: (everything before, the last `.` and what follows), unless the dot belongs
to a directory or only dots precede it in the file name. -/
def splitExt (p : PyStr) : PyStr × PyStr :=
  match rsplit 46 p with
  | none => (p, [])
  | some (root, ext) =>
    match hasSlash ext, notAllDots (baseName root) with
    | false, true => (root, ext)
    | _, _ => (p, [])

/-- transliterate_file.py:28-29, 56-57: the name of the converted text or HTML file -/
def newName (src tgt file : PyStr) : PyStr := (splitExt file).1 ++ u! "_" ++ src ++ tgt ++ (splitExt file).2

/-- transliterate_file.py:119-120: the name of the converted docx file -/
def newNameDocx (src tgt file : PyStr) : PyStr :=
  (splitExt file).1 ++ u! "_" ++ src ++ u! "_" ++ tgt ++ (splitExt file).2

/-- `transliterate.convert(src, tgt, txt, nativize, preoptions, postoptions)` -/
def convertText (E : Env) (src tgt : PyStr) (nativize : Bool) (pre post : List PyStr) (txt : PyStr) : Except Exn PyStr :=
  (convert src tgt nativize pre post).prog.run E txt

/-- transliterate_file.py:24-34 `convert_txt`: the new file is opened, and thereby emptied, before the
text is converted. -/
def convertTxt (E : Env) (L : FileLib) (fs : Files) (src tgt file : PyStr) (nativize : Bool) (pre post : List PyStr) :
    Files × Except Exn Unit :=
  match (fs file).bind L.readText with
  | none => (fs, .error .external)
  | some txt =>
    match convertText E src tgt nativize pre post txt with
    | .error e => (fs.set (newName src tgt file) [], .error e)
    | .ok r => (fs.set (newName src tgt file) (L.writeText r), .ok ())

mutual
/-- transliterate_file.py:45-47: every string of the tree, comments and scripts included, is replaced
by a plain string: its conversion (`node.string` is the string itself). -/
def Html.convert (f : PyStr → Except Exn PyStr) : Html → Except Exn Html
  | .str _ s => (f s).map fun r => .str .plain r
  | .elem name attrs kids => (Html.convertAll f kids).map fun ks => .elem name attrs ks
def Html.convertAll (f : PyStr → Except Exn PyStr) : List Html → Except Exn (List Html)
  | [] => .ok []
  | k :: ks =>
    match Html.convert f k with
    | .error e => .error e
    | .ok k' => (Html.convertAll f ks).map fun ks' => k' :: ks'
end

/-- transliterate_file.py:36-61 `convert_html` -/
def convertHtml (E : Env) (L : FileLib) (fs : Files) (src tgt file : PyStr) (nativize : Bool) (pre post : List PyStr) :
    Files × Except Exn Unit :=
  match (fs file).bind L.readText with
  | none => (fs, .error .external)
  | some html =>
    match Html.convert (convertText E src tgt nativize pre post) (L.parseHtml html) with
    | .error e => (fs, .error e)
    | .ok t => (fs.set (newName src tgt file) (L.writeText (L.prettify t)), .ok ())

/-- transliterate_file.py:9 -/
def wordText : PyStr := u! "{http://schemas.openxmlformats.org/wordprocessingml/2006/main}t"

mutual
/-- transliterate_file.py:97-104: the text of every `w:t` element is converted, in document order.
`f none`: an element without text. -/
def Xml.convert (f : Option PyStr → Except Exn (Option PyStr)) : Xml → Except Exn Xml
  | .node tag attrs text tail kids =>
    match (match strEq tag wordText with | true => f text | false => .ok text) with
    | .error e => .error e
    | .ok t => (Xml.convertAll f kids).map fun ks => .node tag attrs t tail ks
def Xml.convertAll (f : Option PyStr → Except Exn (Option PyStr)) : List Xml → Except Exn (List Xml)
  | [] => .ok []
  | k :: ks =>
    match Xml.convert f k with
    | .error e => .error e
    | .ok k' => (Xml.convertAll f ks).map fun ks' => k' :: ks'
end

/-- `convert` on `None` instead of a text: it is returned by the early return, else some method of a
string is called on it (simplification: always `AttributeError`). -/
def convertMaybe (E : Env) (src tgt : PyStr) (nativize : Bool) (pre post : List PyStr) :
    Option PyStr → Except Exn (Option PyStr)
  | some s => (convertText E src tgt nativize pre post s).map some
  | none =>
    match earlyReturn ⟨src, tgt, nativize, pre, post⟩ with
    | true => .ok none
    | false => .error .attributeError

/-- `s.startswith('word/') and s.endswith('.xml')` -/
def isWordPart (name : PyStr) : Bool := (u! "word/").isPrefixOf name && (u! ".xml").isSuffixOf name

/-- `archive.read(name)`: the contents of the last entry of that name. -/
def readEntry (old : List ZipEntry) (name : PyStr) : Bytes :=
  match old.reverse.find? fun e => strEq e.name name with
  | some e => e.data
  | none => []

/-- transliterate_file.py:85-104 `parse_content`, `xml_file_to_convert`, for one entry.  `convert` is
called with the post-options where it expects the pre-options and vice versa (line 103-104). -/
def convertEntry (E : Env) (L : FileLib) (src tgt : PyStr) (nativize : Bool) (pre post : List PyStr) (old : List ZipEntry)
    (e : ZipEntry) : Except Exn ZipEntry :=
  match isWordPart e.name with
  | false => .ok ⟨e.name, readEntry old e.name⟩
  | true =>
    match L.parseXml e.data with
    | none => .error .external
    | some x => (Xml.convert (convertMaybe E src tgt nativize post pre) x).map fun y => ⟨e.name, L.printXml y⟩

/-- transliterate_file.py:85-90: all entries, in order -/
def convertEntries (E : Env) (L : FileLib) (src tgt : PyStr) (nativize : Bool) (pre post : List PyStr) (old : List ZipEntry) :
    List ZipEntry → Except Exn (List ZipEntry)
  | [] => .ok []
  | e :: es =>
    match convertEntry E L src tgt nativize pre post old e with
    | .error x => .error x
    | .ok e' => (convertEntries E L src tgt nativize pre post old es).map fun es' => e' :: es'

/-- transliterate_file.py:63-83, 112-125 `convert_docx`, `flush_zip_to_file`: the archive is complete
before the new file is opened. -/
def convertDocx (E : Env) (L : FileLib) (fs : Files) (src tgt file : PyStr) (nativize : Bool) (pre post : List PyStr) :
    Files × Except Exn Unit :=
  match (fs file).bind L.readZip with
  | none => (fs, .error .external)
  | some old =>
    match convertEntries E L src tgt nativize pre post old old with
    | .error e => (fs, .error e)
    | .ok new => (fs.set (newNameDocx src tgt file) (L.writeZip new), .ok ())

/-- transliterate_file.py:11-22 `process`: the format is chosen by the first of `.txt`, `.docx`, `.htm`
that occurs anywhere in the path; otherwise, and if there is no such file, only a warning. -/
def processFile (E : Env) (L : FileLib) (fs : Files) (src tgt file : PyStr) (nativize : Bool := true)
    (pre post : List PyStr := []) : Files × Except Exn Unit :=
  match fs file with
  | none => (fs, .ok ())
  | some _ =>
    match isInfix (u! ".txt") file, isInfix (u! ".docx") file, isInfix (u! ".htm") file with
    | true, _, _ => convertTxt E L fs src tgt file nativize pre post
    | false, true, _ => convertDocx E L fs src tgt file nativize pre post
    | false, false, true => convertHtml E L fs src tgt file nativize pre post
    | false, false, false => (fs, .ok ())

end Verif
