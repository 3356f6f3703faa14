import Mathlib.Data.List.Basic
import Mathlib.Data.List.Indexes
import Mathlib.Tactic.Ring
import Mathlib.Algebra.Order.Ring.Int

/-!
# Converting flow grids between codes

`Convert_Flow_Grid` and `Not_Same_Byte_Order` of `topoflow/utils/tf_utils.py`.  A file is the list of
its items; bytes are swapped on reading and writing alike if the byte order is not that of the machine
(tf_utils.py:677-678, 690-691), so that byte order does not matter for the numbers here.
-/

set_option autoImplicit false

namespace FlowCode

/-- The types of items, with their size in bytes: tf_utils.py:642-650.  Any other name means bytes. -/
inductive Ty where
  | byte
  | integer
  | long
  deriving DecidableEq

/-- Bytes of an item: tf_utils.py:642-650. -/
def Ty.size : Ty → ℕ
  | .byte => 1
  | .integer => 2
  | .long => 4

/-- The default codes: tf_utils.py:598-605. -/
def arcCodes : List ℤ := [128, 1, 2, 4, 8, 16, 32, 64]
/-- tf_utils.py:604-605. -/
def rtCodes : List ℤ := [1, 2, 4, 8, 16, 32, 64, 128]

/-- An index of an array with `n` elements; negative indices count from the end.  Used in the model of
tf_utils.py:617, 679. -/
def index (n : ℕ) (c : ℤ) : Except String ℕ :=
  if 0 ≤ c ∧ c < n then .ok c.toNat
  else if c < 0 ∧ -n ≤ c then .ok (c + n).toNat
  else .error "IndexError"

/-- `_map[icodes] = ocodes`, one code after the other; values are stored as bytes: tf_utils.py:616-617. -/
def setCodes : List ℤ → List ℤ → (ℕ → ℤ) → Except String (ℕ → ℤ)
  | [], [], m => .ok m
  | i :: is, o :: os, m =>
    match index 255 i with
    | .error e => .error e
    | .ok k => setCodes is os (fun j => if j = k then o % 256 else m j)
  | _, _, _ => .error "ValueError"

/-- `_map[block]`, tf_utils.py:679. -/
def mapBlock (m : ℕ → ℤ) : List ℤ → Except String (List ℤ)
  | [] => .ok []
  | c :: cs =>
    match index 255 c with
    | .error e => .error e
    | .ok k =>
      match mapBlock m cs with
      | .error e => .error e
      | .ok r => .ok (m k :: r)

/-- The loop over the blocks, tf_utils.py:674-692, with `n` blocks to go: what is left to read, what has
been written, and the exception if there is one.  A block has 1024 items, whatever their size; at the
end of the file `np.fromfile` delivers what there is. -/
def blocks (m : ℕ → ℤ) : ℕ → List ℤ → List ℤ → List ℤ × List ℤ × Option String
  | 0, items, out => (items, out, none)
  | n + 1, items, out =>
    match mapBlock m (items.take 1024) with
    | .error e => (items.drop 1024, out, some e)
    | .ok b => blocks m n (items.drop 1024) (out ++ b)

/-- The number of runs of the loop: `np.arange(1, n_blocks + 1)` with `n_blocks = filesize / 1024`, a
number with fractions: tf_utils.py:631-633, 674.  (The quotient is exact, the divisor is a power of
two.) -/
def runs (filesize : ℕ) : ℕ := (filesize + 1023) / 1024

/-- `Convert_Flow_Grid` for different file names: tf_utils.py:563-722.  The items written, and the
exception, if there is one.  The last part begins with a call of `size`, which is not defined in the
module (tf_utils.py:697; the module has no `from numpy import`). -/
def convert (ty : Ty) (icodes ocodes : List ℤ) (items : List ℤ) : List ℤ × Option String :=
  match setCodes icodes ocodes (fun _ => 0) with
  | .error e => ([], some e)
  | .ok m =>
    let filesize := ty.size * items.length
    match blocks m (runs filesize) items [] with
    | (_, out, some e) => (out, some e)
    | (_, out, none) => if filesize % 1024 ≠ 0 then (out, some "NameError") else (out, none)

end FlowCode
