import Verif.RtsModel
import Mathlib.Algebra.Order.Ring.Rat

/-!
# Unit conversion of a grid stack

Models `convert_units` of `topoflow/utils/rts_files.py` on top of
`Verif.RtsModel`.

* The arithmetic of numpy on `float32` arrays is a parameter: `times f` and
  `plus a` are what `grid *= f` and `grid += a` do to one element.
* Not modelled: printed messages.
-/

set_option autoImplicit false

namespace Rts
open Files

/-- What numpy does to one element of a `float32` array.  Used in the model of
rts_files.py:535-538. -/
structure Arith where
  times : ℚ → Elt → Elt
  plus : ℚ → Elt → Elt

/-- `if (factor != 1): grid *= factor`, `if (add_val != 0): grid += add_val`
(rts_files.py:535-538). -/
def convertGrid (A : Arith) (factor addVal : ℚ) (g : List Elt) : List Elt :=
  let g1 := if factor ≠ 1 then g.map (A.times factor) else g
  if addVal ≠ 0 then g1.map (A.plus addVal) else g1

/-- The loop over the grids (rts_files.py:533-539): `n` more grids from index
`k` on.  `read_grid` is `get_grid` with its default data type (rts_files.py:466-470). -/
def convertLoop (A : Arith) (factor addVal : ℚ) (src : Obj) :
    ℕ → ℕ → Fs → Obj → Except String (Obj × Fs)
  | 0, _, fs, o => .ok (o, fs)
  | n + 1, k, fs, o =>
    match getGrid fs src k "float32" with
    | .error e => .error e
    | .ok g =>
      match addGrid (fun _ (v : Elt) => v) fs o (.grid (convertGrid A factor addVal g)) (-1) with
      | .error e => .error e
      | .ok (o', fs') => convertLoop A factor addVal src n (k + 1) fs' o'

/-- `convert_units` (rts_files.py:507-540).  The new object shares the `info`
object of the old one, and `open_new_file` changes it in place.  Returns the
closed new object and the files. -/
def convertUnits (A : Arith) (fs : Fs) (o : Obj) (newFile : Name) (factor addVal : ℚ)
    (fuel : ℕ) : Except String (Obj × Fs) :=
  match attr "info" o.info with
  | .error e => .error e
  | .ok info =>
    match numberOfGrids fs o with
    | .error e => .error e
    | .ok n =>
      match openNewFile fs {} newFile info "float32" false fuel with
      | .error e => .error e
      | .ok (o1, fs1) =>
        match convertLoop A factor addVal { o with info := o1.info } n 0 fs1 o1 with
        | .error e => .error e
        | .ok (o2, fs2) => .ok (closeFile o2, fs2)

end Rts
