import Mathlib.Algebra.Order.Field.Basic
import Mathlib.Algebra.Order.Group.Abs
import Mathlib.Data.Fintype.Basic
import Mathlib.Data.Finset.Lattice.Fold

/-!
# Linear time interpolation (topoflow/framework/time_interpolation.py)

Numpy arrays are references into a memory of arrays, because the code's behaviour
depends on which arrays are shared.  A variable's array has one entry per cell of a
finite nonempty type `ι` (one cell for a scalar); `rank0` says that it is a 0-d array
or numpy scalar, on which slice assignment `x[:] = ...` raises, so that the `except`
branch runs.  Numbers are exact (the code uses float64).
-/

set_option autoImplicit false

namespace TInterp

variable {ι K : Type*} [Fintype ι] [Nonempty ι] [Field K] [LinearOrder K]

/-- Memory of arrays; references `≥ next` are unused.
Used in the model of time_interpolation.py:36-52. -/
structure Mem (ι K : Type*) where
  arr : ℕ → ι → K
  next : ℕ

/-- `x.copy()`, or any expression creating an array: a new reference.
Used in the model of time_interpolation.py:36-52. -/
def Mem.alloc (m : Mem ι K) (f : ι → K) : ℕ × Mem ι K :=
  (m.next, ⟨Function.update m.arr m.next f, m.next + 1⟩)

/-- `x[:] = f` (or `x.fill`): writes in place.
Used in the model of time_interpolation.py:265-289. -/
def Mem.write (m : Mem ι K) (r : ℕ) (f : ι → K) : Mem ι K :=
  ⟨Function.update m.arr r f, m.next⟩

/-- The coefficient `b`: a fresh array (line 120) or the provider's own array (line 133). -/
inductive BVal (ι K : Type*) where
  | fresh (f : ι → K)
  | shared (r : ℕ)

/-- `time_interp_data` objects.  `a`, `b` are unset before the first `update`; here they
start as zero.  Used in the model of time_interpolation.py:36-52. -/
structure TID (ι K : Type*) where
  v1 : ℕ
  v2 : ℕ
  t1 : K
  t2 : K
  a : ι → K
  b : BVal ι K

/-- `time_interp_data.__init__`, time_interpolation.py:36-52.  `v2` is the provider's own
array, not a copy. -/
def TID.create (m : Mem ι K) (v1 : ℕ) (t1 : K) : TID ι K × Mem ι K :=
  let c := m.alloc (m.arr v1)
  (⟨c.1, v1, t1, t1, fun _ => 0, .fresh fun _ => 0⟩, c.2)

/-- `x[:] = v.copy()` with the `except: x = v.copy()` fallback (lines 82-85, 98-101).
Returns the reference bound afterwards. -/
def assign (rank0 : Bool) (m : Mem ι K) (x : ℕ) (v : ℕ) : ℕ × Mem ι K :=
  if rank0 then m.alloc (m.arr v) else (x, m.write x (m.arr v))

/-- `np.abs(v2 - v1).min()`, lines 116-117. -/
def dvMin (f g : ι → K) : K :=
  Finset.univ.inf' Finset.univ_nonempty (fun i => |f i - g i|)

/-- `time_interp_data.update`, time_interpolation.py:63-133. -/
def TID.update (rank0 : Bool) (m : Mem ι K) (d : TID ι K) (v2 : ℕ) (t2 : K) :
    TID ι K × Mem ι K :=
  let t1 := d.t2
  let x := assign rank0 m d.v1 d.v2
  let y := assign rank0 x.2 d.v2 v2
  let m2 := y.2
  let new := m2.arr v2
  let old := m2.arr x.1
  if dvMin new old ≠ 0 ∧ t2 ≠ t1 then
    let a := fun i => (new i - old i) / (t2 - t1)
    (⟨x.1, y.1, t1, t2, a, .fresh fun i => new i - a i * t2⟩, m2)
  else
    (⟨x.1, y.1, t1, t2, fun _ => 0, .shared v2⟩, m2)

/-- The array delivered by `get_values` at `time`, method 'Linear',
time_interpolation.py:657-678: `a * time + b`. -/
def TID.getValue (m : Mem ι K) (d : TID ι K) (time : K) : ι → K := fun i =>
  d.a i * time + (match d.b with
    | .fresh f => f i
    | .shared r => m.arr r i)

/-- What a provider's `update()` does to the array of one of its output variables:
writes into it (`x[:] = ...`, `x.fill(...)`, BMI_base.py:2347-2361) or binds the attribute
to a newly created array (`self.x = ...`). -/
inductive Act (ι K : Type*) where
  | inplace (f : ι → K)
  | rebind (f : ι → K)

/-- Built on the model of BMI_base.py:2347-2361. -/
def Act.val : Act ι K → ι → K
  | .inplace f => f
  | .rebind f => f

/-- Built on the model of BMI_base.py:2347-2361. -/
def Act.isRebind : Act ι K → Bool
  | .inplace _ => false
  | .rebind _ => true

/-- Provider reference, interpolation object, memory.
Used in the model of time_interpolation.py:246-257. -/
structure Sys (ι K : Type*) where
  mem : Mem ι K
  prov : ℕ
  tid : TID ι K

/-- Before the first `bmi.update`: the provider's array holds `v0` at time `t0`
(time_interpolation.py:246-257). -/
def Sys.start (v0 : ι → K) (t0 : K) : Sys ι K :=
  let p := (Mem.alloc ⟨fun _ => v0, 0⟩ v0)
  let c := TID.create p.2 p.1 t0
  ⟨c.2, p.1, c.1⟩

/-- One `bmi.update()` followed by `i_vars.update(v2, t2)`
(time_interpolation.py:265-289, 428-461, 546-566). -/
def Sys.step (rank0 : Bool) (s : Sys ι K) (act : Act ι K) (t2 : K) : Sys ι K :=
  let pm : ℕ × Mem ι K := match act with
    | .inplace f => (s.prov, s.mem.write s.prov f)
    | .rebind f => s.mem.alloc f
  let d := s.tid.update rank0 pm.2 pm.1 t2
  ⟨d.2, pm.1, d.1⟩

/-- A whole history of updates.  Built on the model of time_interpolation.py:265-289. -/
def Sys.run (rank0 : Bool) (v0 : ι → K) (t0 : K) (h : List (Act ι K × K)) : Sys ι K :=
  h.foldl (fun s x => s.step rank0 x.1 x.2) (Sys.start v0 t0)

/-- Value delivered to a user at `time` after the history `h`.
Built on the model of BMI_base.py:2347-2361. -/
def delivered (rank0 : Bool) (v0 : ι → K) (t0 : K) (h : List (Act ι K × K)) (time : K) : ι → K :=
  let s := Sys.run rank0 v0 t0 h
  s.tid.getValue s.mem time

end TInterp
