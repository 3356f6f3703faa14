import Verif.CfgModel
import Verif.TemplateModel

/-!
# Configuration files as dialogs

Model of `topoflow/utils/cfg2xml.py`.  The XML file is a sequence of tags and
texts.  Simplified: the indentation, line ends and the comment lines between tabs
are left out, and texts are taken as they are (the code does not escape them).
Lines come without their newline character, which `strip` removes in the code.
-/

set_option autoImplicit false

namespace Dialog

open Cfg

/-- Parts of an XML file: an opening tag with its `name` attribute, a closing tag, a text. -/
inductive Tok where
  | op (tag : String) (name : Option Str)
  | cl (tag : String)
  | txt (s : Str)
deriving DecidableEq, Repr

/-- A tag with a text.  cfg2xml.py:118, 126, 129, 133, 135, 139. -/
def elem (tag : String) (s : Str) : List Tok := [.op tag none, .txt s, .cl tag]

/-- `line.split( word_delim )[i].strip()`, nothing if there is no such word.  cfg2xml.py:88-89. -/
def word (l : Str) (i : ℕ) : Option Str := ((split '|' l)[i]?).map strip

/-- The writes of an entry, each with the index of the word it needs, in this order.
`value.replace` is done for the input directory only.  cfg2xml.py:114-141. -/
def entryWrites (vp l : Str) : List (ℕ × (Str → List Tok)) :=
  [(0, fun w => [.op "entry" (some (vp ++ w))]),
   (1, fun w => elem "label" w),
   (3, fun w => elem "default" (if (word l 0).getD [] = "in_directory".toList then
      Template.replaceAll "/data/sims/topoflow".toList "/home/csdms/models/topoflow/3.1/share/data".toList w else w)),
   (2, fun w => elem "type" w)] ++
  ((if lower ((word l 2).getD []) ≠ "string".toList then
    [(0, fun _ => [.op "range" none]), (4, fun w => elem "min" w), (5, fun w => elem "max" w),
     (0, fun _ => [.cl "range"])] else []) ++
  [(6, fun w => elem "help_brief" w), (0, fun _ => [.cl "entry"])])

/-- The writes one after the other, up to the first word that is missing.  cfg2xml.py:114-141. -/
def doWrites (l : Str) : List (ℕ × (Str → List Tok)) → Option String × List Tok
  | [] => (none, [])
  | (i, f) :: r =>
    match word l i with
    | none => (some "IndexError: list index out of range", [])
    | some w => ((doWrites l r).1, f w ++ (doWrites l r).2)

/-- `FIRST_TAB` and `help_url`, which is not set before a line gives it.  cfg2xml.py:79, 104. -/
structure St where
  first : Bool
  help : Option Str

/-- One line.  cfg2xml.py:85-141. -/
def step (vp : Str) (st : St) (l : Str) : Option String × List Tok × St :=
  let first := (word l 0).getD []
  if first = "PPF_GROUP_NAME".toList then
    let close := if st.first then [] else [Tok.cl "tab"]
    match word l 1 with
    | none => (some "IndexError: list index out of range", close, st)
    | some n => (none, close ++ [.op "tab" (some n)], { st with first := false })
  else if first = "HTML_HELP_FILE".toList then
    match word l 3 with
    | none => (some "IndexError: list index out of range", [], st)
    | some u => (none, [], { st with help := some u })
  else if first = [] then (none, [], st)
  else if first.head? = some '#' then (none, [], st)
  else
    let r := doWrites l (entryWrites vp l)
    (r.1, r.2, st)

/-- The loop over the lines.  cfg2xml.py:81-141. -/
def run (vp : Str) : St → List Str → Option String × List Tok × St
  | st, [] => (none, [], st)
  | st, l :: ls =>
    match step vp st l with
    | (some e, o, st') => (some e, o, st')
    | (none, o, st') =>
      let r := run vp st' ls
      (r.1, o ++ r.2.1, r.2.2)

/-- The About tab up to the tag of the help file.  cfg2xml.py:154-172. -/
def aboutHead (model : Str) : List Tok :=
  [.op "tab" (some "About".toList),
   .op "entry" (some ('/' :: (model ++ "/ModelName".toList)))] ++
  elem "label" "Model name:".toList ++ elem "help_brief" "Name of the model".toList ++
  elem "default" model ++ elem "type" "String".toList ++
  [.cl "entry", .op "entry" (some ('/' :: (model ++ "/ModelAuthor".toList)))] ++
  elem "label" "Author name:".toList ++ elem "help_brief" "Name of the model author".toList ++
  elem "default" "Scott D. Peckham ".toList ++ elem "type" "String".toList ++
  [.cl "entry", .op "entry" (some "HTML_HELP_FILE".toList)] ++
  elem "label" "HTML help file:".toList ++ elem "help_brief" "URL for HTML help file".toList

/-- The rest of the file.  cfg2xml.py:173-182. -/
def aboutTail (url : Str) : List Tok :=
  elem "default" url ++ elem "type" "String".toList ++ [.cl "entry", .cl "tab", .cl "dialog"]

/-- `cfg2xml` for a file of these lines, of which the first four are skipped: an error, and what has
been written.  cfg2xml.py:71-182. -/
def convert (model : Str) (lines : List Str) : Option String × List Tok :=
  let r := run ('/' :: (model ++ "/Input/Var/".toList)) ⟨true, none⟩ (lines.drop 4)
  match r.1 with
  | some e => (some e, .op "dialog" none :: r.2.1)
  | none =>
    match r.2.2.help with
    | none => (some "UnboundLocalError: help_url", .op "dialog" none :: (r.2.1 ++ aboutHead model))
    | some u => (none, .op "dialog" none :: (r.2.1 ++ (aboutHead model ++ aboutTail u)))

/-- The XML file after the call, for its state before: a file that exists is left alone.
cfg2xml.py:64-70. -/
def fileAfter (old : Option (List Tok)) (model : Str) (lines : List Str) : Option (List Tok) :=
  match old with
  | some t => some t
  | none => some (convert model lines).2

end Dialog
