import Mathlib.Data.List.Basic

set_option autoImplicit false

/-!
# Configuration files made from templates: utils/cfg_templates.py and utils/template_files.py

Texts are lists of characters; the files themselves are not modelled, only what is written from what was read.
-/

namespace Template

/-- A text.  Used in the model of cfg_templates.py:14-49. -/
abbrev Text := List Char

/-- `text.replace(old, new)` of Python for a nonempty `old`: from left to right, without overlap; the first argument counts
the characters of a match still to be passed over.  Used in the model of cfg_templates.py:41. -/
def replaceGo (old new : Text) : ℕ → Text → Text
  | _, [] => []
  | k + 1, _ :: cs => replaceGo old new k cs
  | 0, c :: cs =>
    if old.isPrefixOf (c :: cs) then new ++ replaceGo old new (old.length - 1) cs else c :: replaceGo old new 0 cs

/-- `text.replace(old, new)`.  Used in the model of cfg_templates.py:41, template_files.py:109. -/
def replaceAll (old new text : Text) : Text := replaceGo old new 0 text

/-- `make_new_cfg_file` (cfg_templates.py:34-49), from the text of the template to the text that is written; the values are
given as they are printed by `str`.  Nothing is written when there are fewer values than names. -/
def makeNew : List Text → List Text → Text → Except String Text
  | [], _, text => .ok text
  | _ :: _, [], _ => .error "IndexError: list index out of range"
  | var :: vars, val :: vals, text =>
    makeNew vars vals (replaceAll ('{' :: '{' :: (var ++ ['}', '}'])) val text)

/-- `re.findall( pattern, line )` with the pattern of template_files.py:88, a dollar sign and an opening brace, one or more
characters other than the closing brace, and the closing brace; from left to right, without overlap. -/
def findGo : ℕ → Text → List Text
  | _, [] => []
  | k + 1, _ :: cs => findGo k cs
  | 0, c :: cs =>
    match c, cs with
    | '$', '{' :: rest =>
      let run := rest.takeWhile (fun x => decide (x ≠ '}'))
      if run ≠ [] ∧ (rest.drop run.length).head? = some '}' then
        ('$' :: '{' :: (run ++ ['}'])) :: findGo (run.length + 2) cs
      else findGo 0 cs
    | _, _ => findGo 0 cs

/-- One placeholder that was found in a line (template_files.py:107-109). -/
def replaceOne (dict : Text → Option Text) (l s : Text) : Text :=
  match dict s with
  | some v => replaceAll s v l
  | none => l

/-- One line of `replace` with `method='RE'` (template_files.py:104-110).  The keys of the dictionary are the whole
placeholders. -/
def replaceLine (dict : Text → Option Text) (line : Text) : Text :=
  (findGo 0 line).foldl (replaceOne dict) line

/-- `replace` with `method='RE'` (template_files.py:42-133) on the lines of the template. -/
def replaceFile (dict : Text → Option Text) (lines : List Text) : Text := (lines.map (replaceLine dict)).flatten

end Template
