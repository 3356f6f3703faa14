import Mathlib.Data.List.Basic
import Mathlib.Data.Set.Finite.Basic

/-!
# File names and the "do not overwrite" rule

Models `topoflow/utils/file_utils.py` (`get_prefix_and_extension`,
`replace_extension`, `check_overwrite`) and the file-name part of
`topoflow/utils/rti_files.py` (`get_file_prefix`, `get_rti_file_name`,
`try_to_find_rti_file`).

A file name is a list of characters.  A directory is seen through
`os.path.exists`, i.e. as a predicate on names.
-/

set_option autoImplicit false

namespace Files

/-- A file name (Python `str`).  Used in the model of file_utils.py:50-59. -/
abbrev Name := List Char

/-- Python `s.rfind(c)` for a one-character pattern: the position of the last
occurrence; `none` stands for Python's `-1`.  Used in the model of file_utils.py:50-59. -/
def rfind (c : Char) : Name → Option ℕ
  | [] => none
  | x :: xs =>
    match rfind c xs with
    | some p => some (p + 1)
    | none => if x = c then some 0 else none

/-- `prefix = file_name[:pos]` with `pos = file_name.rfind('.')`
(file_utils.py:50-59, rti_files.py:68-73).  Without a dot `pos = -1`, and
`file_name[:-1]` drops the last character. -/
def prefixOf (s : Name) : Name :=
  match rfind '.' s with
  | some p => s.take p
  | none => s.dropLast

/-- `extension = file_name[pos:]` (file_utils.py:50-59).  Without a dot
`file_name[-1:]` is the last character. -/
def extensionOf (s : Name) : Name :=
  match rfind '.' s with
  | some p => s.drop p
  | none => s.drop (s.length - 1)

/-- `replace_extension` (file_utils.py:42-46). -/
def replaceExtension (s ext : Name) : Name := prefixOf s ++ ext

/-- `new_name = (prefix + '_' + str(k) + extension)` (file_utils.py:79-80). -/
def versioned (s : Name) (k : ℕ) : Name :=
  prefixOf s ++ ('_' :: Nat.toDigits 10 k) ++ extensionOf s

/-- The `while (True)` loop of `check_overwrite` (file_utils.py:77-85) with a
fuel argument; `none` means "still looping". -/
def overwriteLoop (ex : Name → Bool) (s : Name) : ℕ → ℕ → Option Name
  | 0, _ => none
  | fuel + 1, k =>
    if ex (versioned s k) then overwriteLoop ex s fuel (k + 1)
    else some (versioned s k)

/-- `check_overwrite` (file_utils.py:63-85). -/
def checkOverwrite (ex : Name → Bool) (fuel : ℕ) (s : Name) : Option Name :=
  if ! ex s then some s else overwriteLoop ex s fuel 1

/-- `get_rti_file_name` (rti_files.py:77-83).  The test
`file_name[-4:].lower == '.rti'` compares a bound method with a string and is
always false, so the extension is always replaced. -/
def rtiName (s : Name) : Name := prefixOf s ++ ".rti".toList

/-- Position of the last underscore, used to strip compound extensions
(rti_files.py:103-109).  The loop is a structural recursion on a bound for the
length of the prefix (each turn shortens it). -/
def stripLoop (ex : Name → Bool) : ℕ → Name → Option Name
  | 0, _ => none
  | fuel + 1, p =>
    match rfind '_' p with
    | none => none
    | some pos =>
      let p' := p.take pos
      let f := p' ++ ".rti".toList
      if ex f then some f else stripLoop ex fuel p'

/-- `try_to_find_rti_file` (rti_files.py:87-124). -/
def tryToFindRti (ex : Name → Bool) (s : Name) : Option Name :=
  if ex (rtiName s) then some (rtiName s)
  else stripLoop ex (s.length + 1) (prefixOf s)

end Files
