import Verif.SatzoneModel

/-!
# Model of the groundwater recharge: uniform and gridded values, and the attenuating component

`update_water_volume_change` of `topoflow/components/satzone_base.py` and of
`topoflow/components/satzone_attenuate.py`, with the distinction between a number and a grid that
`SatzoneModel` leaves out; the recharge rate that the infiltration component delivers
(`topoflow/components/infil_base.py`), the excess rain rate of the channel component
(`topoflow/components/channels_base.py`) and the cell area (`topoflow/utils/pixels.py`).  Real numbers
instead of floats.
-/

set_option autoImplicit false

noncomputable section

namespace Recharge

open D8 (Cell)
open Chan (Net fancyAdd)

variable {ny nx : ℕ}

/-- A variable of a component: a number (a NumPy scalar or an array without dimensions) or a grid.  Used in
the model of infil_base.py:253, 758, pixels.py:185-207 and satzone_base.py:884. -/
inductive Val (ny nx : ℕ) where
  | num (x : ℝ)
  | grid (f : Cell ny nx → ℝ)

/-- The value at a cell.  Used in the model of satzone_base.py:884. -/
def Val.at : Val ny nx → Cell ny nx → ℝ
  | .num x, _ => x
  | .grid f, c => f c

/-- The product of two variables, which is a number only if both are (satzone_base.py:884). -/
def Val.mul : Val ny nx → Val ny nx → Val ny nx
  | .num x, .num y => .num (x * y)
  | .num x, .grid g => .grid (fun c => x * g c)
  | .grid f, .num y => .grid (fun c => f c * y)
  | .grid f, .grid g => .grid (fun c => f c * g c)

/-- `dV[p_k] += dt * Q_gw[w_k]` for one direction (satzone_base.py:893-908, satzone_attenuate.py:268-283):
skipped if no cell flows in this direction; a number cannot be indexed. -/
def addDir (dt : ℝ) (Q : Cell ny nx → ℝ) (net : Net ny nx) (k : Fin 8) :
    Val ny nx → Except String (Val ny nx)
  | .num x => if net.w k = [] then .ok (.num x) else .error "IndexError"
  | .grid v =>
    .ok (.grid (fancyAdd v ((net.w k).map net.parent) ((net.w k).map (fun e => dt * Q e))))

/-- The eight directions one after the other (satzone_base.py:893-908). -/
def addDirs (dt : ℝ) (Q : Cell ny nx → ℝ) (net : Net ny nx) :
    List (Fin 8) → Val ny nx → Except String (Val ny nx)
  | [], v => .ok v
  | k :: ks, v =>
    match addDir dt Q net k v with
    | .error e => .error e
    | .ok v' => addDirs dt Q net ks v'

/-- `update_water_volume_change` (satzone_base.py:866-929): the net inflow `dV` of each cell.  After the
last statement `dV` is a grid, because `Q_gw` is one. -/
def volumeChange (dt : ℝ) (da Rg : Val ny nx) (Q : Cell ny nx → ℝ) (net : Net ny nx) :
    Except String (Cell ny nx → ℝ) :=
  match addDirs dt Q net (List.finRange 8) ((Rg.mul da).mul (.num dt)) with
  | .error e => .error e
  | .ok v => .ok (fun c => v.at c - Q c * dt)

/-- `self.Rg = self.P_rain * fraction` with `fraction = 1.0` (satzone_attenuate.py:250-251). -/
def attenuateRg (P : Val ny nx) : Val ny nx := P.mul (.num 1)

/-- `update_water_volume_change` of the attenuating component (satzone_attenuate.py:239-302).  The recharge
rate from the infiltration component (`_Rg`) is replaced. -/
def volumeChangeAttenuate (dt : ℝ) (da _Rg P : Val ny nx) (Q : Cell ny nx → ℝ) (net : Net ny nx) :
    Except String (Cell ny nx → ℝ) :=
  volumeChange dt da (attenuateRg P) Q net

/-- `update_Rg` (infil_base.py:746-764; the Richards component has its own, infil_richards_1D.py:2330-2344,
which is not modelled here). -/
def infilRg (IN : Val ny nx) : Val ny nx := IN

/-- `update_R` (channels_base.py:1649): the water that stays on the surface of a cell. -/
def excess (P SM GW MR ET IN : ℝ) : ℝ := (P + SM + GW + MR) - (ET + IN)

/-- `get_da` (pixels.py:185-207): a number for grids with fixed-length cells, otherwise a grid with the
area of the cells of each row. -/
def cellArea (fixed : Bool) (hy : 0 < ny) (dx dy : Fin ny → ℝ) : Val ny nx :=
  if fixed then .num (dx ⟨0, hy⟩ * dy ⟨0, hy⟩) else .grid (fun c => dx c.1 * dy c.1)

end Recharge

end
