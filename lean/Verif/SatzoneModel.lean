import Verif.ChannelModel
import Mathlib.Algebra.Order.Field.Basic
import Mathlib.Algebra.BigOperators.Group.List.Basic

/-!
# Groundwater (topoflow/components/satzone_base.py)

The water table functions act on each grid cell by itself, so they are modelled for one cell: a
column of soil layers, listed from the top down.  Values are real numbers (any linearly ordered
field): no rounding.  `update_top_layer_for_ET` (696-865) returns at once and changes nothing.
Not modelled: reading of input files (see `InputModel`), output, `check_init_water_table`-style
messages, freezing depth.
-/

set_option autoImplicit false

namespace Satzone

section column

variable {K : Type*} [Field K] [LinearOrder K] [IsStrictOrderedRing K]

/-- One soil layer of one cell: thickness `th[k]`, porosity `qs[k]` and wetted thickness `y[k]`.
Used in the model of satzone_base.py:454-459. -/
structure Layer (K : Type*) where
  th : K
  p : K
  y : K
  deriving DecidableEq

/-- The loop of `initialize_wetted_thicknesses`, satzone_base.py:454-459: `z` is the value of
`bottom_z`, which is the same array as `self.elev`, so the value left in it at the end is returned
as well.  A layer is given by thickness and porosity. -/
def wetted (h : K) : K → List (K × K) → List (Layer K) × K
  | z, [] => ([], z)
  | z, (th, p) :: ls =>
    let bottom := z - th
    let r := wetted h bottom ls
    (⟨th, p, min (max (h - bottom) 0) th⟩ :: r.1, r.2)

/-- What `initialize_wetted_thicknesses` (satzone_base.py:425-495) leaves behind. -/
structure Init (K : Type*) where
  layers : List (Layer K)
  elev : K

/-- `initialize_wetted_thicknesses`, satzone_base.py:425-495.  `bottom_z = self.elev` does not copy
and `bottom_z -= th[k]` works in place. -/
def initWetted (elev h : K) (ls : List (K × K)) : Init K :=
  let r := wetted h elev ls
  ⟨r.1, r.2⟩

/-- One turn of the first loop of `update_water_table`, satzone_base.py:993-1032, in one cell. -/
def riseLayer (l : Layer K) (dzw h : K) : Layer K × K × K :=
  let dz := l.th - l.y
  let avail := min (dz * l.p) 0
  if dzw > avail then
    ({ l with y := l.th }, dzw - avail, h + dz)
  else
    let dh := dzw / l.p
    ({ l with y := l.y + dh }, 0, h + dh)

/-- The first loop of `update_water_table`, satzone_base.py:993-1032: from the bottom layer up. -/
def riseLoop : List (Layer K) → K → K → List (Layer K) × K × K
  | [], dzw, h => ([], dzw, h)
  | l :: ls, dzw, h =>
    let r := riseLoop ls dzw h
    let t := riseLayer l r.2.1 r.2.2
    (t.1 :: r.1, t.2.1, t.2.2)

/-- One turn of the second loop of `update_water_table`, satzone_base.py:1055-1087. -/
def fallLayer (l : Layer K) (dzw h : K) : Layer K × K × K :=
  let avail := l.y * l.p
  if |dzw| > avail then
    ({ l with y := 0 }, dzw + avail, h - l.y)
  else
    let dh := dzw / l.p
    ({ l with y := l.y + dh }, 0, h + dh)

/-- The second loop of `update_water_table`, satzone_base.py:1055-1087: from the top layer down. -/
def fallLoop : List (Layer K) → K → K → List (Layer K) × K × K
  | [], dzw, h => ([], dzw, h)
  | l :: ls, dzw, h =>
    let t := fallLayer l dzw h
    let r := fallLoop ls t.2.1 t.2.2
    (t.1 :: r.1, r.2.1, r.2.2)

/-- `update_water_table`, satzone_base.py:931-1115, in a cell with the given net inflow `dzw`:
new layers and new water table elevation.  `noflow` says that the cell is one of `d8.noflow_IDs`.
Without layers `pk` is undefined (NameError), here `none`. -/
def updateTable (noflow : Bool) (dzw : K) (ls : List (Layer K)) (h : K) :
    Option (List (Layer K) × K) :=
  match ls.getLast? with
  | none => none
  | some last =>
    let pos := if dzw < 0 then 0 else dzw
    let r := riseLoop ls pos h
    let h1 := if r.2.1 > 0 then r.2.2 + r.2.1 else r.2.2
    let neg := if dzw > 0 then 0 else dzw
    let f := fallLoop r.1 neg h1
    let h2 := if f.2.1 < 0 then f.2.2 + f.2.1 / last.p else f.2.2
    some (f.1, if noflow then 0 else h2)

/-- `update_seep_rate`, satzone_base.py:627-681, in one cell: the seepage rate; `h_last` becomes the
present water table. -/
def seepRate (noflow : Bool) (dt elev h_last h : K) : K :=
  let dh_dt := (h - h_last) / dt
  let gw := (if h > elev then 1 else 0) * dh_dt
  max (if noflow then 0 else gw) 0

/-- `update_Q_gw`, satzone_base.py:605-625, in one cell: `q` is the previous discharge, layers come
with their conductivities `Ks[k]`. -/
def updateQ (Sh dw q : K) (ls : List (K × Layer K)) : K :=
  ls.foldl (fun q kl => q + kl.1 * Sh * dw * kl.2.y) (min q 0)

/-- `update_Sh`, satzone_base.py:579-603: water table slope towards the parent cell. -/
def slopeSh {C : Type*} (h : C → K) (parent : C → C) (ds : C → K) (c : C) : K :=
  (h c - h (parent c)) / ds c

end column

noncomputable section grid

open D8 (Cell)
open Chan (Net fancyAdd)

variable {ny nx : ℕ}

/-- `update_water_volume_change`, satzone_base.py:866-929: the net inflow volume `dV` of each cell.
A scalar recharge rate or cell area is a constant grid here. -/
def volumeChange (dt : ℝ) (da Rg Q : Cell ny nx → ℝ) (net : Net ny nx) : Cell ny nx → ℝ :=
  let v0 : Cell ny nx → ℝ := fun c => Rg c * da c * dt
  let v8 := (List.finRange 8).foldl
    (fun v k => fancyAdd v ((net.w k).map net.parent) ((net.w k).map (fun e => dt * Q e))) v0
  fun c => v8 c - Q c * dt

/-- `dzw` in `update_water_volume_change`, satzone_base.py:917-920. -/
def inflowDepth (dt : ℝ) (da Rg Q : Cell ny nx → ℝ) (net : Net ny nx) (c : Cell ny nx) : ℝ :=
  volumeChange dt da Rg Q net c / da c

end grid

end Satzone
