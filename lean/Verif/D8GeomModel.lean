import Verif.D8Model
import Mathlib.Analysis.Real.Sqrt
import Mathlib.Analysis.Real.Pi.Bounds

/-!
# Model of the D8 flow geometry: flow widths, flow lengths, slopes and aspects

`d8_global.py`: `update_flow_width_grid`, `update_flow_length_grid`, `update_slope_grid`,
`update_aspect_grid`.  Real-number arithmetic instead of 32-bit floats.
-/

set_option autoImplicit false

namespace D8Geom
open D8

noncomputable section

variable {ny nx : ℕ}

/-- Diagonal flow codes (d8_global.py:906-907, 983-984). -/
def isDiag (f : ℤ) : Bool := f = 1 ∨ f = 4 ∨ f = 16 ∨ f = 64
/-- East and west flow (d8_global.py:919, 992). -/
def isHoriz (f : ℤ) : Bool := f = 2 ∨ f = 32
/-- North and south flow (d8_global.py:929, 1000). -/
def isVert (f : ℤ) : Bool := f = 8 ∨ f = 128

/-- `update_flow_width_grid` (d8_global.py:873-945) at one cell; `old` is the value of `dw`
before the call, which is kept for a code outside the nine values handled; `method2` is the
optional argument `METHOD2`.  The pixel sizes are indexed by the row of the cell. -/
def flowWidth (method2 : Bool) (dx dy dd : Fin ny → ℝ) (d : Cell ny nx → ℤ)
    (old : Cell ny nx → ℝ) (c : Cell ny nx) : ℝ :=
  let w := old c
  let w := if isDiag (d c) then
      (if method2 = false then dd c.1 else (dx c.1 + dy c.1) / 4) else w
  let w := if isHoriz (d c) then (if method2 then dy c.1 / 2 else dy c.1) else w
  let w := if isVert (d c) then (if method2 then dx c.1 / 2 else dx c.1) else w
  if d c = 0 then dx c.1 else w

/-- `update_flow_length_grid` (d8_global.py:960-1014) at one cell. -/
def flowLength (dx dy dd : Fin ny → ℝ) (d : Cell ny nx → ℤ)
    (old : Cell ny nx → ℝ) (c : Cell ny nx) : ℝ :=
  let s := old c
  let s := if isDiag (d c) then dd c.1 else s
  let s := if isHoriz (d c) then dx c.1 else s
  let s := if isVert (d c) then dy c.1 else s
  if d c = 0 then dx c.1 else s

/-- `divmod(pID, nx)` used as a pair of indices (`update_parent_IDs`, d8_global.py:679).  An ID
outside the grid is `none`; numpy would accept some negative ones, which do not occur. -/
def cellOfID (p : ℤ) : Option (Cell ny nx) :=
  if h : 0 ≤ p / (nx : ℤ) ∧ p / (nx : ℤ) < ny ∧ 0 ≤ p % (nx : ℤ) ∧ p % (nx : ℤ) < nx then
    some (⟨(p / (nx : ℤ)).toNat, by omega⟩, ⟨(p % (nx : ℤ)).toNat, by omega⟩)
  else none

/-- `update_slope_grid` (d8_global.py:1334-1347): `S = (DEM - DEM[parent_IDs]) / ds`, then zero
on `noflow_IDs`; `none` where `update_noflow_IDs` raises or an index is out of range. -/
def slopeGrid (lr tb : Bool) (z ds : Cell ny nx → ℝ) (d : Cell ny nx → ℤ) :
    Option (Cell ny nx → ℝ) :=
  if (allCells ny nx).all fun c => (cellOfID (ny := ny) (nx := nx) (parentID lr tb d c)).isSome then
    match noflowIDs d with
    | none => none
    | some l => some fun c =>
        if c ∈ l then 0
        else match cellOfID (ny := ny) (nx := nx) (parentID lr tb d c) with
          | some p => (z c - z p) / ds c
          | none => 0
  else none

/-- `a = np.linspace(0.0, 2 * np.pi, 9)` (d8_global.py:1357). -/
def linspaceA (i : ℕ) : ℝ := i * (2 * Real.pi) / 8

/-- `update_aspect_grid` (d8_global.py:1350-1374) at one cell. -/
def aspect (d : Cell ny nx → ℤ) (c : Cell ny nx) : ℝ :=
  let v : ℝ := 0
  let v := if d c = 0 then 0 else v
  let v := if d c = 1 then linspaceA 1 else v
  let v := if d c = 2 then linspaceA 0 else v
  let v := if d c = 4 then linspaceA 7 else v
  let v := if d c = 8 then linspaceA 6 else v
  let v := if d c = 16 then linspaceA 5 else v
  let v := if d c = 32 then linspaceA 4 else v
  let v := if d c = 64 then linspaceA 3 else v
  if d c = 128 then linspaceA 2 else v

end

end D8Geom
