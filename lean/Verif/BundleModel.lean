import Mathlib.Data.List.Sort
import Mathlib.Data.List.Lex
import Mathlib.Data.Rat.Defs
import Mathlib.Algebra.Order.Field.Rat

set_option autoImplicit false

/-!
# Bundling grid files into a grid stack (components/evap_read_file.py, utils/rtg2rts.py) and angles given in degrees,
minutes and seconds (utils/ngen/data_utils.py)
-/

namespace Bundle

/-- A file name as its character codes, compared as texts.  Used in the model of evap_read_file.py:304-305. -/
abbrev Name := List ℕ

/-- The files: the values in each file.  Used in the model of evap_read_file.py:331-337. -/
abbrev Files (α : Type) := Name → Option (List α)

/-- The values written by `RTG_to_RTS` (evap_read_file.py:304-337) for the names that `glob` found, in any order: the names
are sorted; from each file at most `n = nx*ny` values are read (`count=nx*ny`). -/
def written {α : Type} (fs : Files α) (n : ℕ) (found : List Name) : List α :=
  ((found.insertionSort (· ≤ ·)).map (fun f => ((fs f).getD []).take n)).flatten

/-- `RTG_to_RTS` (evap_read_file.py:280-345) with `nx` and `ny` given, as its effect on the files: nothing is done when the new
file exists.  The case where they come from an RTI file differs only in where `n` comes from. -/
def rtgToRts {α : Type} (fs : Files α) (n : ℕ) (found : List Name) (new : Name) : Files α :=
  match fs new with
  | some _ => fs
  | none => fun f => if f = new then some (written fs n found) else fs f

/-- An argument of the script.  Used in the model of rtg2rts.py:19-20. -/
inductive Arg
  | none
  | int (k : ℕ)
  | str (k : ℕ)

/-- `eval(nx)` (rtg2rts.py:65-66): only a text can be evaluated. -/
def Arg.eval : Arg → Except String ℕ
  | .str k => .ok k
  | _ => .error "TypeError: eval() arg 1 must be a string, bytes or code object"

/-- `rtg2rts` (rtg2rts.py:19-87) with at least one of `nx`, `ny` given; `swap` is what swapping the bytes does to a value: the
result of `grid.byteswap()` is not used (line 80). -/
def rtg2rts {α : Type} (_swap : α → α) (fs : Files α) (nx ny : Arg) (found : List Name) (new : Name) :
    Except String (Files α) :=
  match fs new with
  | some _ => .ok fs
  | none => do
    let a ← nx.eval
    let b ← ny.eval
    return fun f => if f = new then some (written fs (a * b) found) else fs f

/-- `convert_dms_to_dec_deg` (data_utils.py:1317-1343) from the three numbers; the degrees are given by the sign before them
and their size, since `-0` is a number with a sign (line 1338 compares with 0). -/
def decDeg (neg : Bool) (d mn sc : ℚ) : ℚ :=
  let D := if neg then -d else d
  if D < 0 then D - mn / 60 - sc / 3600 else D + mn / 60 + sc / 3600

end Bundle
