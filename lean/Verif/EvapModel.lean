import Verif.ChannelModel

/-!
# The evaporation components and their coupling to the channels

topoflow/components/evap_base.py, evap_priestley_taylor.py, evap_energy_balance.py, and the use of
the ET grid in channels_base.py `update_R`.  The channel component holds a reference to the ET grid
of the evaporation component (the framework passes references, see `EmeliModel`), and sets entries
of that grid to zero in place.  Grids are functions on cells, values are real numbers.
-/

set_option autoImplicit false

noncomputable section

namespace Evap

open D8 (Cell)
open Chan

variable {ny nx : ℕ}

/-- `update_Qc`, evap_base.py:326-353. -/
def soilHeat (kSoil tSurf tSoil x : ℝ) : ℝ := kSoil * (tSurf - tSoil) / x

/-- `update_ET_rate`, evap_priestley_taylor.py:308-393, in one cell. -/
def ptRate (alpha tAir qnSW qnLW qc : ℝ) : ℝ :=
  let qNet := qnSW + qnLW
  let qet := alpha * (0.406 + 0.011 * tAir) * (qNet + qc)
  max (qet / 2.5e9) 0

/-- `update_ET_rate`, evap_energy_balance.py:292-366, in one cell. -/
def ebRate (qSum qe qc : ℝ) : ℝ :=
  let qet := (qSum - qe) + qc
  max (qet / 2.5e9) 0

/-- The evaporation component's grid, its running total, and (ghost) the water really taken from the
channels.  Used in the model of evap_base.py:179-229. -/
structure ESt (ny nx : ℕ) where
  ET : Cell ny nx → ℝ
  volET : ℝ
  removed : ℝ

/-- `update`, evap_base.py:179-229: the new rates are written into the grid and added to the total
(`update_ET_integral`, evap_base.py:366-377). -/
def evapUpdate (da : Cell ny nx → ℝ) (dtE : ℝ) (pot : Cell ny nx → ℝ) (s : ESt ny nx) : ESt ny nx :=
  { s with
    ET := pot
    volET := s.volET + ∑ c, pot c * da c * dtE }

/-- The inputs that a channel update sees, with the shared ET grid.
Used in the model of channels_base.py:1628-1632. -/
def withET (inp : Inp ny nx) (et : Cell ny nx → ℝ) : Inp ny nx := { inp with ET := .inr et }

/-- A channel update in state `cs` (channels_base.py:1628-1632): entries of the shared grid are set
to zero in place; what remains is removed from the channels at rate `ET`. -/
def chanUses (p : Params ny nx) (inp : Inp ny nx) (cs : St ny nx) (s : ESt ny nx) : ESt ny nx :=
  let et : Cell ny nx → ℝ := actualET p (withET inp s.ET) cs
  { s with
    ET := et
    removed := s.removed + ∑ c, et c * p.da c * p.dt }

/-- One evaporation update followed by the channel updates up to the next one, with the channel
states before each of them.  Built on the model of channels_base.py:1628-1632. -/
def coupled (p : Params ny nx) (inp : Inp ny nx) (dtE : ℝ) (pot : Cell ny nx → ℝ)
    (css : List (St ny nx)) (s : ESt ny nx) : ESt ny nx :=
  css.foldl (fun s cs => chanUses p inp cs s) (evapUpdate p.da dtE pot s)

end Evap
