import Mathlib.Data.List.Lex
import Mathlib.Data.List.Sort
import Mathlib.Data.Char
import Verif.CfgModel

/-!
# Site numbers of two tables

`get_site_ids` and `get_common_site_ids` of topoflow/utils/ngen/classify.py.  A text file is the list of its lines as
`readline()` returns them: each with its newline character, except that the last one may be without.
-/

set_option autoImplicit false

namespace SiteId

open Cfg (Str split strip)

/-- `ID.isdigit()` (classify.py:255), simplified to the ten ASCII digits. -/
def isDigits (s : Str) : Bool := decide (s ≠ []) && s.all Char.isDigit

/-- The loop of `get_site_ids` over the lines after the header (classify.py:231-242). -/
def readIds (col : ℕ) (delim : Char) : List Str → Except String (List Str)
  | [] => .ok []
  | l :: ls =>
    match (split delim l.dropLast)[col]? with
    | none => .error "IndexError: list index out of range"
    | some v =>
      match readIds col delim ls with
      | .error e => .error e
      | .ok ids => .ok (strip v :: ids)

/-- `get_site_ids` (classify.py:225-261). -/
def siteIds (file : List Str) (col : ℕ) (delim : Char) (numeric : Bool) : Except String (List Str) :=
  match readIds col delim (file.drop 1) with
  | .error e => .error e
  | .ok ids => .ok ((if numeric then ids.filter isDigits else ids).insertionSort (· ≤ ·))

/-- Separator and column of a data set (classify.py:270-311); `none` for an unknown name.  The files themselves are a
parameter of `commonIds`. -/
def layout (ds : String) : Option (Char × ℕ) :=
  if ds.toLower = "knoben" then some (';', 0)
  else if ds.toLower = "ngen_gages" then some ('\t', 2)
  else if ds.toLower ∈ ["sb3", "gages2", "gages2_psi", "gages2_all", "harbor", "noaa_rfc"] then some ('\t', 0)
  else none

/-- The elements of `set(a) & set(b)` or `set(a) - set(b)` in the order of `sorted` (classify.py:325-346). -/
def setSorted (l : List Str) : List Str := l.dedup.insertionSort (· ≤ ·)

/-- `get_common_site_ids` with `number_only=False` (classify.py:264-346): `none` is Python's None, which is returned
for any other option. -/
def commonIds (files : String → List Str) (ds1 ds2 : String) (numeric : Bool) (option : String) :
    Except String (Option (List Str)) :=
  match layout ds1, layout ds2 with
  | some (d1, c1), some (d2, c2) =>
    match siteIds (files ds1.toLower) c1 d1 numeric with
    | .error e => .error e
    | .ok a =>
      match siteIds (files ds2.toLower) c2 d2 numeric with
      | .error e => .error e
      | .ok b =>
        if option = "common" then .ok (some (setSorted (a.filter (fun x => decide (x ∈ b)))))
        else if option = "in1not2" then .ok (some (setSorted (a.filter (fun x => decide (x ∉ b)))))
        else .ok none
  | _, _ => .error "UnboundLocalError: cannot access local variable"

end SiteId
