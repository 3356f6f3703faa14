import Mathlib.Data.List.Basic
import Mathlib.Data.Int.Notation
import Mathlib.Algebra.Order.Field.Basic

/-!
# Arrays and grid information in the component base class (topoflow/utils/BMI_base.py)

`get_value` with a destination array, and the functions that describe the grid of a variable.

numpy: an array is its shape and its values at multi-indices; `dest[:] = value` follows numpy's
broadcasting rule for assignment.  Data types are not modelled (conversion between numeric types
always succeeds); attributes are numpy arrays, plain Python numbers, or missing.
-/

set_option autoImplicit false

namespace BMIGrid

/-- A numpy array: shape and values.  Used in the model of BMI_base.py:577. -/
structure Nd (K : Type*) where
  shape : List ℕ
  at_ : List ℕ → K

/-- numpy's `PyArray_AssignArray`: leading ones of the source shape are dropped while the source has
more dimensions than the destination.  Used in the model of BMI_base.py:577. -/
def stripOnes : List ℕ → ℕ → List ℕ
  | [], _ => []
  | n :: s, r => if r < (n :: s).length ∧ n = 1 then stripOnes s r else n :: s

/-- Broadcasting of reversed shapes: each source dimension is 1 or that of the destination.
Used in the model of BMI_base.py:577. -/
def fitsRev : List ℕ → List ℕ → Bool
  | [], _ => true
  | _ :: _, [] => false
  | n :: s, m :: d => (n == 1 || n == m) && fitsRev s d

/-- Can an array of shape `s` be assigned to a whole array of shape `d`?.
Used in the model of BMI_base.py:577. -/
def fits (s d : List ℕ) : Bool := fitsRev (stripOnes s d.length).reverse d.reverse

/-- The source index (reversed) that goes to a destination index (reversed).
Used in the model of BMI_base.py:577. -/
def srcRev : List ℕ → List ℕ → List ℕ
  | [], _ => []
  | _ :: s, [] => 0 :: srcRev s []
  | n :: s, i :: t => (if n = 1 then 0 else i) :: srcRev s t

/-- The source index that goes to a destination index.  Used in the model of BMI_base.py:577. -/
def src (s i : List ℕ) : List ℕ := (srcRev s.reverse i.reverse).reverse

/-- `dest[:] = v` for numpy arrays (BMI_base.py:577, 592). -/
def assign {K : Type*} (dest v : Nd K) : Except String (Nd K) :=
  if dest.shape = [] then .error "IndexError"
  else if fits v.shape dest.shape then .ok { dest with at_ := fun i => v.at_ (src v.shape i) }
  else .error "ValueError"

/-- An attribute of a component: a numpy array, or a plain number without `dtype`.
Used in the model of BMI_base.py:591. -/
inductive Attr (K : Type*)
  | arr (v : Nd K)
  | num (x : K)

/-- The array that an attribute is in an assignment.  Used in the model of BMI_base.py:564-592. -/
def Attr.toNd {K : Type*} : Attr K → Nd K
  | .arr v => v
  | .num x => ⟨[], fun _ => x⟩

/-- A component: names and attributes.  Used in the model of BMI_base.py:564-592. -/
structure Comp (K : Type*) where
  nameOf : String → Option String
  attr : String → Option (Attr K)

/-- `np.zeros( shape, dtype=dtype )` (BMI_base.py:591); the type is `'unknown'` when the attribute
has none (BMI_base.py:371-376), which numpy does not understand. -/
def zeros {K : Type*} [Zero K] (a : Option (Attr K)) : Except String (Nd K) :=
  match a with
  | some (.arr v) => .ok ⟨v.shape, fun _ => 0⟩
  | _ => .error "TypeError"

/-- `get_value( long_var_name, dest )` (BMI_base.py:564-592). -/
def getValue {K : Type*} [Zero K] (o : Comp K) (long : String) (dest : Nd K) :
    Except String (Nd K) :=
  match o.nameOf long with
  | none => .error "KeyError"
  | some n =>
    let first : Except String (Nd K) :=
      match o.attr n with
      | none => .error "AttributeError"
      | some a => assign dest a.toNd
    match first with
    | .ok d => .ok d
    | .error _ =>
      match zeros (o.attr n) with
      | .error e => .error e
      | .ok z => assign dest z

/-- Grid information of a component (`self.grid_info`, BMI_base.py:1416-1418). -/
structure Info (K : Type*) where
  ny : ℕ
  nx : ℕ
  pixelGeom : ℤ
  yres : K
  xres : K
  ySouth : K
  xWest : K

/-- A grid identifier; Python's `None` is not equal to 0.
Used in the model of BMI_base.py:351-353. -/
abbrev GridId := Option ℤ

/-- `get_var_grid` (BMI_base.py:351-353) has an empty body. -/
def getVarGrid (_long : String) : GridId := none

/-- `get_grid_rank` (BMI_base.py:675-680). -/
def gridRank (g : GridId) : ℕ := if g = some 0 then 2 else 0

/-- `get_grid_size` (BMI_base.py:684-692). -/
def gridSize {K : Type*} (i : Info K) (g : GridId) : ℕ := if g = some 0 then i.ny * i.nx else 1

/-- `get_grid_type` (BMI_base.py:696-710). -/
def gridType {K : Type*} (i : Info K) (g : GridId) : String :=
  if g = some 0 then
    if i.pixelGeom = 1 then "uniform_rectilinear" else "structured_quadrilateral"
  else "scalar"

/-- `np.array( [a, b] )`.  Used in the model of BMI_base.py:714-728. -/
def pair {K : Type*} (a b : K) : Nd K := ⟨[2], fun i => if i = [0] then a else b⟩

/-- `get_grid_shape` (BMI_base.py:714-728). -/
def gridShape {K : Type*} (i : Info K) (g : GridId) (buf : Nd ℕ) : Except String (Nd ℕ) :=
  if g = some 0 then assign buf (pair i.ny i.nx) else .ok buf

/-- `get_grid_spacing` (BMI_base.py:732-750). -/
def gridSpacing {K : Type*} (i : Info K) (g : GridId) (buf : Nd K) : Except String (Nd K) :=
  if g = some 0 then assign buf (pair i.yres i.xres) else .ok buf

/-- `get_grid_origin` (BMI_base.py:754-768). -/
def gridOrigin {K : Type*} (i : Info K) (g : GridId) (buf : Nd K) : Except String (Nd K) :=
  if g = some 0 then assign buf (pair i.ySouth i.xWest) else .ok buf

/-- `get_var_location` (BMI_base.py:471-476): the method has no parameter but `self`, so a call with
`n` arguments is accepted for `n = 0` only. -/
def varLocation (nArgs : ℕ) : Except String String :=
  if nArgs = 0 then .ok "node" else .error "TypeError"

/-- `get_var_itemsize` and `get_var_nbytes` (BMI_base.py:441-469); `bytes` is the size in bytes of
one element. -/
def itemsize {K : Type*} (o : Comp K) (bytes : ℤ) (long : String) : Except String ℤ :=
  match o.nameOf long with
  | none => .error "KeyError"
  | some n => match o.attr n with
    | some (.arr _) => .ok bytes
    | _ => .ok (-1)

/-- See `itemsize`.  Built on the model of BMI_base.py:564-592. -/
def nbytes {K : Type*} (o : Comp K) (bytes : ℤ) (long : String) : Except String ℤ :=
  match o.nameOf long with
  | none => .error "KeyError"
  | some n => match o.attr n with
    | some (.arr v) => .ok (bytes * (v.shape.prod : ℕ))
    | _ => .ok (-1)

end BMIGrid
