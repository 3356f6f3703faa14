import Mathlib.Algebra.Order.Field.Basic
import Mathlib.Data.List.Basic

/-!
# Reading the soil parameters of Richards' method

`read_input_files` of `topoflow/components/infil_richards_1D.py:2486-2590`, called by `initialize`
and by every update but the first (infil_base.py:185-300, 303-345), and the variables that are built
from what was read (infil_richards_1D.py:461-494, 597-611).  Numbers are exact.
-/

set_option autoImplicit false

namespace SoilRead

section
variable {K : Type*} [Field K] [LinearOrder K]

/-- A value: one number, or the values of a grid.  Used in the model of
infil_richards_1D.py:2486-2590. -/
inductive Val (K : Type*) where
  | num (x : K)
  | grid (l : List K)

/-- What `read_next` gives for a parameter (model_input.py:132-184): nothing, if the parameter is a
number in the CFG file or the file has come to its end; a number, from a time series; a grid, from a
grid or a sequence of grids. -/
inductive Next (K : Type*) where
  | nothing
  | number (x : K)
  | grid (l : List K)

/-- `l.min()` of the values from `x` on.  Used in the model of infil_richards_1D.py:2505. -/
def minFrom (x : K) (l : List K) : K := l.foldl min x

/-- The values that are not at most zero, `Ks_val[w2]`.  Used in the model of
infil_richards_1D.py:2502-2505. -/
def positives (l : List K) : List K := l.filter (fun x => decide (0 < x))

/-- `Ks`, infil_richards_1D.py:2496-2514.  The minimum of no values raises ValueError; a number has
no item assignment, so that a time series raises TypeError (or ValueError, because the minimum is
computed first). -/
def readKs : Next K → Except String (Option (Val K))
  | .nothing => .ok none
  | .number x => if x ≤ 0 then .error "ValueError" else .error "TypeError"
  | .grid l =>
    if l = [] then .ok (some (.grid l))
    else match positives l with
      | [] => .error "ValueError"
      | p :: ps => .ok (some (.grid (l.map (fun x => if x ≤ 0 then minFrom p ps else x))))

/-- `pB`, infil_richards_1D.py:2534-2550. -/
def readPB : Next K → Except String (Option (Val K))
  | .nothing => .ok none
  | .number _ => .error "TypeError"
  | .grid l => .ok (some (.grid (l.map (fun x => if x < -3 then -3 else x))))

/-- `lam`, infil_richards_1D.py:2556-2574. -/
def readLam : Next K → Except String (Option (Val K))
  | .nothing => .ok none
  | .number _ => .error "TypeError"
  | .grid l => .ok (some (.grid (l.map (fun x => if x < 1 / 10 then 1 / 10 else x))))

/-- The other parameters, infil_richards_1D.py:2517-2532, 2553-2554, 2577-2578. -/
def readPlain : Next K → Except String (Option (Val K))
  | .nothing => .ok none
  | .number x => .ok (some (.num x))
  | .grid l => .ok (some (.grid l))

/-- The nine parameters of a layer that can be read from files.  Used in the model of
infil_richards_1D.py:2496-2578. -/
structure Given (α : Type*) where
  Ks : α
  Ki : α
  qs : α
  qi : α
  qr : α
  pB : α
  pA : α
  lam : α
  c : α

/-- The parameters of a layer (the elements of `Ks_list` and so on), with the two that are computed
from the others.  Used in the model of infil_richards_1D.py:444-457. -/
structure Layer (K : Type*) where
  given : Given (Val K)
  eta : Val K
  qH : Val K

/-- `np.float64(2) + (np.float64(3) * lam)`, infil_richards_1D.py:483, 2575. -/
def etaOf : Val K → Val K
  | .num x => .num (2 + 3 * x)
  | .grid l => .grid (l.map (fun x => 2 + 3 * x))

/-- One layer in `read_input_files`, infil_richards_1D.py:2495-2586.  `theta` is `theta_of_psi` at
`psi_hygro`, as a function of `qs`, `qr`, `pB`, `pA`, `c` and `lam`. -/
def readLayer (theta : Given (Val K) → Val K) (y : Layer K) (n : Given (Next K)) :
    Except String (Layer K) := do
  let Ks ← readKs n.Ks
  let Ki ← readPlain n.Ki
  let qs ← readPlain n.qs
  let qi ← readPlain n.qi
  let qr ← readPlain n.qr
  let pB ← readPB n.pB
  let pA ← readPlain n.pA
  let lam ← readLam n.lam
  let c ← readPlain n.c
  let g : Given (Val K) :=
    { Ks := Ks.getD y.given.Ks
      Ki := Ki.getD y.given.Ki
      qs := qs.getD y.given.qs
      qi := qi.getD y.given.qi
      qr := qr.getD y.given.qr
      pB := pB.getD y.given.pB
      pA := pA.getD y.given.pA
      lam := lam.getD y.given.lam
      c := c.getD y.given.c }
  .ok ⟨g, (lam.map etaOf).getD y.eta, theta g⟩

/-- `read_input_files` for all layers, infil_richards_1D.py:2495-2586. -/
def readAll (theta : Given (Val K) → Val K) :
    List (Layer K) → List (Given (Next K)) → Except String (List (Layer K))
  | y :: ys, n :: ns => do
    let z ← readLayer theta y n
    let zs ← readAll theta ys ns
    .ok (z :: zs)
  | _, _ => .ok []

/-- `set_computed_input_vars`, infil_richards_1D.py:461-494. -/
def computeLayer (theta : Given (Val K) → Val K) (y : Layer K) : Layer K :=
  ⟨y.given, etaOf y.given.lam, theta y.given⟩

/-- The component: the lists, and the layers from which the one-dimensional or three-dimensional
arrays are built that the equations are solved with (infil_richards_1D.py:597-611; `build_layered_var`
copies, see `LayerModel`).  Used in the model of infil_base.py:185-345. -/
structure State (K : Type*) where
  lists : List (Layer K)
  built : List (Layer K)

/-- The numbers of the CFG file are in the lists before anything is read; `eta` and `qH` are zero
(infil_richards_1D.py:444-457).  Used in the model of infil_base.py:230. -/
def fromCfg (g : List (Given K)) : List (Layer K) :=
  g.map (fun x => ⟨⟨.num x.Ks, .num x.Ki, .num x.qs, .num x.qi, .num x.qr, .num x.pB, .num x.pA,
    .num x.lam, .num x.c⟩, .num 0, .num 0⟩)

/-- The reading part of `initialize`, infil_base.py:262-290, infil_richards_1D.py:461-494, 597-611. -/
def initialize' (theta : Given (Val K) → Val K) (cfg : List (Given K)) (n : List (Given (Next K))) :
    Except String (State K) := do
  let l ← readAll theta (fromCfg cfg) n
  let l' := l.map (computeLayer theta)
  .ok ⟨l', l'⟩

/-- The reading part of an update, infil_base.py:319-321. -/
def update (theta : Given (Val K) → Val K) (s : State K) (n : List (Given (Next K))) :
    Except String (State K) := do
  let l ← readAll theta s.lists n
  .ok { s with lists := l }

/-- Any number of updates.  Used in the model of infil_base.py:303-345. -/
def updates (theta : Given (Val K) → Val K) :
    State K → List (List (Given (Next K))) → Except String (State K)
  | s, [] => .ok s
  | s, n :: ns => do
    let s1 ← update theta s n
    updates theta s1 ns

end

end SoilRead
