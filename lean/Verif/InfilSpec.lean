import Verif.InfilModel

/-!
# What is claimed of the infiltration components
-/

set_option autoImplicit false

noncomputable section

namespace InfilSpec

open D8 (Cell)
open Infil

variable {ny nx : ℕ}

/-- Water supplied to cell `c` by rain and snowmelt (m/s). -/
def supply (i : Inp ny nx) (c : Cell ny nx) : ℝ := i.P_rain.at c + i.SM.at c

/-- Depth of water supplied to cell `c` over a list of updates of length `dt`. -/
def totalSupply (dt : ℝ) (is : List (Inp ny nx)) (c : Cell ny nx) : ℝ :=
  (is.map (fun i => supply i c * dt)).sum

/-- A numpy scalar. -/
def IsScalar : Val ny nx → Prop
  | .sc _ => True
  | .gr _ => False

/-- Every component uses scalars exactly when all inputs are scalars: if the infiltrated depth was
allocated as a scalar, then rain, snowmelt and the soil parameters are scalars. -/
def Consistent (p : Params ny nx) (allScalars : Bool) (is : List (Inp ny nx)) : Prop :=
  allScalars = true → IsScalar p.Ks ∧ (∀ c c', p.cap c = p.cap c') ∧
    ∀ i ∈ is, IsScalar i.P_rain ∧ IsScalar i.SM

/-- Rain and melt are not negative. -/
def Wet (is : List (Inp ny nx)) : Prop := ∀ i ∈ is, ∀ c, 0 ≤ i.P_rain.at c ∧ 0 ≤ i.SM.at c

/-- Green-Ampt soil in its physical range. -/
def IsGreenAmpt (p : Params ny nx) : Prop :=
  ∃ Ki qs qi G : Cell ny nx → ℝ, ∀ c,
    0 ≤ Ki c ∧ Ki c ≤ p.Ks.at c ∧ qi c ≤ qs c ∧ 0 ≤ G c ∧
    ∀ I, p.cap c I = greenAmpt (p.Ks.at c) (Ki c) (qs c) (qi c) (G c) I

/-- Smith-Parlange soil in its physical range. -/
def IsSmithParlange (p : Params ny nx) : Prop :=
  ∃ Ki qs qi G gam : Cell ny nx → ℝ, ∀ c,
    0 ≤ Ki c ∧ Ki c ≤ p.Ks.at c ∧ qi c < qs c ∧ 0 < G c ∧ 0 < gam c ∧
    ∀ I, p.cap c I = smithParlange (p.Ks.at c) (Ki c) (qs c) (qi c) (G c) (gam c) I

/-- Beven soil in its physical range. -/
def IsBeven (p : Params ny nx) : Prop :=
  ∃ qs qi f C : Cell ny nx → ℝ, ∀ c,
    0 ≤ p.Ks.at c ∧ qi c < qs c ∧ f c < 0 ∧ 0 ≤ C c ∧
    ∀ I, p.cap c I = beven (p.Ks.at c) (qs c) (qi c) (f c) (C c) I

end InfilSpec
