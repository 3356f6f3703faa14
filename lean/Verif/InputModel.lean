import Verif.D8Model
import Mathlib.Algebra.Order.Field.Basic
import Mathlib.Data.Fintype.BigOperators

/-!
# Input variables read from files

topoflow/utils/model_input.py (`read_next`, `read_scalar`, `read_grid`) and the functions of
topoflow/utils/BMI_base.py that keep a variable up to date from what was read (`initialize_var`,
`update_var`).

A numpy variable is a 0-dimensional array ("mutable scalar") or a grid.  Numbers are elements of an
ordered field: rounding to float32 is not modelled.  A text file is a list of lines; a line is blank
after `strip()`, or its first word parses as a number, or it does not (the float parser is not modelled).
A binary file is the list of its items, already in native byte order (byte order is treated in
`RtsModel`).
-/

set_option autoImplicit false

namespace Input

open D8 (Cell)

variable {ny nx : ℕ} {K : Type*} [Field K] [LinearOrder K] [IsStrictOrderedRing K]

/-- A 0-dimensional numpy array or a grid.  Used in the model of model_input.py:136-180. -/
inductive Val (K : Type*) (ny nx : ℕ)
  | sc (a : K)
  | gr (g : Cell ny nx → K)

/-- The value seen by a cell, with numpy broadcasting of scalars.
Used in the model of BMI_base.py:2325-2358. -/
def Val.at : Val K ny nx → Cell ny nx → K
  | .sc a, _ => a
  | .gr g, c => g c

/-- A numpy elementwise binary operation: the result is a scalar when both arguments are.
Built on the model of BMI_base.py:2325-2358. -/
def Val.map2 (f : K → K → K) : Val K ny nx → Val K ny nx → Val K ny nx
  | .sc a, .sc b => .sc (f a b)
  | x, y => .gr (fun c => f (x.at c) (y.at c))

/-- `x * a` for a number `a`.  Used in the model of BMI_base.py:2325-2358. -/
def Val.scale (a : K) : Val K ny nx → Val K ny nx
  | .sc x => .sc (x * a)
  | .gr g => .gr (fun c => g c * a)

/-- The types an input variable may have in a CFG file (`P_type` etc.).
Used in the model of model_input.py:136-180. -/
inductive VarType
  | scalar | timeSeries | grid | gridSequence
  deriving DecidableEq

/-- A line of a text file.  Used in the model of model_input.py:184-222. -/
inductive Line (K : Type*)
  /-- Nothing left after `strip()`. -/
  | blank
  /-- The first word is a number. -/
  | value (v : K)
  /-- The first word is not a number: `np.float32` raises ValueError. -/
  | bad

/-- What is left to read of an open file.  Used in the model of model_input.py:136-180. -/
inductive File (K : Type*)
  | text (lines : List (Line K))
  | binary (items : List K)

/-- `read_scalar`, model_input.py:184-222 (space separated): the value, or `None` for a blank line and
at the end of the file (`readline` returns `''`), and what is left to read. -/
def readScalar : List (Line K) → Except String (Option K × List (Line K))
  | [] => .ok (none, [])
  | .blank :: ls => .ok (none, ls)
  | .value v :: ls => .ok (some v, ls)
  | .bad :: _ => .error "ValueError"

/-- `read_grid`, model_input.py:226-243: `np.fromfile` with `count = n_pixels` delivers what is
left when that is less; nothing left gives `None`; an incomplete grid cannot be reshaped. -/
def readGrid (ny nx : ℕ) (items : List K) :
    Except String (Option (Cell ny nx → K) × List K) :=
  let now := items.take (ny * nx)
  if now.length = 0 then .ok (none, items)
  else if h : now.length = ny * nx then
    .ok (some (fun c => now.get ⟨c.1.val * nx + c.2.val, by
      rw [h]
      have h1 := c.1.2
      have h2 := c.2.2
      calc c.1.val * nx + c.2.val < c.1.val * nx + nx := by omega
        _ = (c.1.val + 1) * nx := by rw [Nat.add_mul, Nat.one_mul]
        _ ≤ ny * nx := Nat.mul_le_mul_right _ h1⟩), items.drop (ny * nx))
  else .error "ValueError"

/-- `read_next`, model_input.py:136-180. -/
def readNext (ty : VarType) (units : K) (f : File K) :
    Except String (Option (Val K ny nx) × File K) :=
  match ty, f with
  | .scalar, f => .ok (none, f)
  | .timeSeries, .text ls =>
    match readScalar ls with
    | .ok (v, r) => .ok (v.map (fun a => .sc (a * units)), .text r)
    | .error e => .error e
  | .grid, .binary is | .gridSequence, .binary is =>
    match readGrid ny nx is with
    | .ok (v, r) => .ok (v.map (fun g => .gr (fun c => g c * units)), .binary r)
    | .error e => .error e
  | _, _ => .error "wrong file mode"

/-- `initialize_var`, BMI_base.py:2309-2321 (`'scalar'` variables keep their CFG value `v0`). -/
def initVar (ty : VarType) (v0 : K) : Val K ny nx :=
  match ty with
  | .scalar => .sc v0
  | .timeSeries => .sc 0
  | .grid | .gridSequence => .gr (fun _ => 0)

/-- `update_var`, BMI_base.py:2325-2358, with a factor.  Filling a 0-dimensional array with a grid
raises ValueError. -/
def updateVar (var : Val K ny nx) (value : Option (Val K ny nx)) (factor : K) :
    Except String (Val K ny nx) :=
  match value with
  | none => .ok var
  | some v =>
    match var, v.scale factor with
    | .sc _, .sc a => .ok (.sc a)
    | .sc _, .gr _ => .error "ValueError"
    | .gr _, v => .ok (.gr v.at)

/-- One call of `read_next` followed by `update_var`, as in the `read_input_files` methods,
met_base.py:2427-2443, infil_base.py and elsewhere. -/
def readVar (ty : VarType) (units factor : K) (s : Val K ny nx × File K) :
    Except String (Val K ny nx × File K) :=
  match readNext ty units s.2 with
  | .error e => .error e
  | .ok (v, f) =>
    match updateVar s.1 v factor with
    | .error e => .error e
    | .ok x => .ok (x, f)

/-- `k` successive reads.  Built on the model of met_base.py:2427-2443. -/
def readMany (ty : VarType) (units factor : K) : ℕ → Val K ny nx × File K →
    Except String (Val K ny nx × File K)
  | 0, s => .ok s
  | k + 1, s =>
    match readVar ty units factor s with
    | .error e => .error e
    | .ok s' => readMany ty units factor k s'

end Input
