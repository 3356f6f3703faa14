import Mathlib.Analysis.SpecialFunctions.Log.Basic
import Mathlib.Analysis.SpecialFunctions.Gamma.Basic
import Mathlib.Analysis.SpecialFunctions.Pow.Real

/-!
# Soil hydraulic properties from soil maps

topoflow/utils/pedotransfer.py: checking and converting soil grids, the pedotransfer functions of
Wösten (1998) and the parameters of the transitional Brooks-Corey model.  A grid is the list of its
values.  Values are exact; NaN is not modelled.  A minimum or maximum over no value raises
(`ValueError` of numpy).
-/

set_option autoImplicit false

namespace Soil

section Grid

variable {K : Type*} [Field K] [LinearOrder K]

/-- `a[mask].min()` (pedotransfer.py:276-279, 833); `none` is numpy's `ValueError`. -/
def minOf : List K → Option K
  | [] => none
  | x :: xs => some (xs.foldl min x)

/-- `a[mask].max()` (pedotransfer.py:281-284, 836); `none` is numpy's `ValueError`. -/
def maxOf : List K → Option K
  | [] => none
  | x :: xs => some (xs.foldl max x)

/-- `check_soil_grid_values` for one grid with upper limit `hi` (pedotransfer.py:273-302): the smallest
value that is not negative and the largest that is not above the limit are taken first, then zeros
become one, then values out of range become the middle of the two.  The messages are not modelled. -/
def checkGrid (hi : K) (g : List K) : Except String (List K) :=
  match minOf (g.filter (fun x => 0 ≤ x)), maxOf (g.filter (fun x => x ≤ hi)) with
  | some a, some b =>
    .ok (g.map (fun x =>
      let y := if x = 0 then 1 else x
      if y < 0 ∨ hi < y then (a + b) / 2 else y))
  | _, _ => .error "ValueError"

/-- `check_soil_grid_values` (pedotransfer.py:254-302) on the four grids, in place: clay, silt, organic
carbon, density. -/
def checkAll (C S OC D : List K) : Except String (List K × List K × List K × List K) :=
  match checkGrid 100 C, checkGrid 100 S, checkGrid 1000 OC, checkGrid 2650 D with
  | .ok c, .ok s, .ok o, .ok d => .ok (c, s, o, d)
  | _, _, _, _ => .error "ValueError"

/-- `convert_soil_grid_values` for organic carbon (pedotransfer.py:391-408). -/
def organicMatter (OC : List K) : List K :=
  OC.map (fun x => if x = -9999 then -9999 else x / 10 * (1724 / 1000))

/-- `convert_soil_grid_values` for bulk density (pedotransfer.py:419-421). -/
def bulkDensity (D : List K) : List K :=
  D.map (fun x => if x = -9999 then -9999 else x / 1000)

/-- The range check of `wosten_theta_s` (pedotransfer.py:810-836). -/
def forceTheta (g : List K) : Except String (List K) :=
  if g.any (fun x => decide (x < 0 ∨ 1 < x)) then
    match minOf (g.filter (fun x => 0 < x)) with
    | none => .error "ValueError"
    | some a =>
      let g1 := g.map (fun x => if x < 0 then a else x)
      match maxOf (g1.filter (fun x => x < 1)) with
      | none => .error "ValueError"
      | some b => .ok (g1.map (fun x => if 1 < x then b else x))
  else .ok g

/-- Where an input is missing the water content is set to the missing value (pedotransfer.py:796-805,
with the values of 130-136). -/
def markNodata (C S OM D theta : K) : K :=
  if (OM = 101 ∨ D = 10) ∨ (C = 101 ∨ S = 101) then -9999 else theta

/-- The range check of `wosten_alpha`, and the change of units (pedotransfer.py:960-1026). -/
def forceAlpha (x : K) : K :=
  let y := if x < -(15 / 100) then -(15 / 100) else x
  let z := if -(4 / 1000) < y then -(4 / 1000) else y
  z * 100

/-- The range check of `wosten_n` (pedotransfer.py:1055-1077). -/
def forceN (x : K) : K :=
  let y := if x < 1 then 101 / 100 else x
  if 3 < y then 3 else y

/-- The range check of `wosten_L` (pedotransfer.py:1117-1141). -/
def forceL (x : K) : K :=
  let y := if x < -10 then -10 else x
  if 10 < y then 10 else y

/-- The range check of `capillary_length_G` (pedotransfer.py:1243-1272). -/
def forceG (x : K) : K :=
  let y := if x < 8 / 100 then 8 / 100 else x
  if 23 / 10 < y then 23 / 10 else y

end Grid

noncomputable section

open Real

/-- The formula of `wosten_theta_s` (pedotransfer.py:785-791). -/
def thetaFormula (C S OM D t : ℝ) : ℝ :=
  let p1 := 7919 / 10000 + 1691 / 1000000 * C - 29619 / 100000 * D
  let p2 := -(1491 / 1000000000) * S ^ 2 + 821 / 10000000 * OM ^ 2
  let p3 := 2427 / 100000 * (1 / C) + 1113 / 100000 * (1 / S) + 1472 / 100000 * log S
  let p4 := (-(733 / 10000000) * OM * C) - (619 / 1000000 * D * C)
  let p5 := (-(1183 / 1000000) * D * OM) - (1664 / 10000000 * t * S)
  p1 + p2 + p3 + p4 + p5

/-- `wosten_theta_s` (pedotransfer.py:775-840) on the cells of four grids, given as the list of the
cells (clay, silt, organic matter, density). -/
def thetaS (cells : List (ℝ × ℝ × ℝ × ℝ)) (t : ℝ) : Except String (List ℝ) :=
  forceTheta (cells.map (fun q => markNodata q.1 q.2.1 q.2.2.1 q.2.2.2
    (thetaFormula q.1 q.2.1 q.2.2.1 q.2.2.2 t)))

/-- `wosten_K_s` (pedotransfer.py:843-905). -/
def wostenKs (C S OM D t : ℝ) : ℝ :=
  let p1 := 7755 / 1000 + 352 / 10000 * S + 93 / 100 * t
  let p2 := -(967 / 1000) * D ^ 2 - 484 / 1000000 * C ^ 2 - 322 / 1000000 * S ^ 2
  let p3 := (1 / 1000 / S) - (748 / 10000 / OM) - 643 / 1000 * log S
  let p4 := (-(1398 / 100000) * D * C) - (1673 / 10000 * D * OM)
  let p5 := (2986 / 100000 * t * C) - 3305 / 100000 * t * S
  exp (p1 + p2 + p3 + p4 + p5) / (100 * 24 * 3600)

/-- `wosten_alpha` (pedotransfer.py:909-1029). -/
def wostenAlpha (C S OM D t : ℝ) : ℝ :=
  let p1 := -(1496 / 100) + 3135 / 100000 * C + 351 / 10000 * S + 646 / 1000 * OM + 1529 / 100 * D
  let p2 := -(192 / 1000) * t - 4671 / 1000 * D ^ 2 - 781 / 1000000 * C ^ 2 - 687 / 100000 * OM ^ 2
  let p3 := (449 / 10000 / OM) + 663 / 10000 * log S + 1482 / 10000 * log OM
  let p4 := (-(4546 / 100000) * D * S) - (4852 / 10000 * D * OM)
  let p5 := 673 / 100000 * t * C
  forceAlpha (-1 * exp (p1 + p2 + p3 + p4 + p5))

/-- `wosten_n` (pedotransfer.py:1032-1090). -/
def wostenN (C S OM D t : ℝ) : ℝ :=
  let p1 := -(2523 / 100) - 2195 / 100000 * C + 74 / 10000 * S - 1940 / 10000 * OM + 455 / 10 * D
  let p2 := -(724 / 100) * D ^ 2 + 3658 / 10000000 * C ^ 2 + 2885 / 1000000 * OM ^ 2
    - (1281 / 100 / D)
  let p3 := (-(1524 / 10000) / S) - (1958 / 100000 / OM) - 2876 / 10000 * log S
  let p4 := (-(709 / 10000) * log OM) - (446 / 10 * log D)
  let p5 := (-(2264 / 100000) * D * C) + (896 / 10000 * D * OM) + (718 / 100000 * t * C)
  forceN (exp (p1 + p2 + p3 + p4 + p5) + 1)

/-- `wosten_L` (pedotransfer.py:1094-1144). -/
def wostenL (C S OM D : ℝ) : ℝ :=
  let p1 := 202 / 10000 + 6193 / 10000000 * C ^ 2 - 1136 / 1000000 * OM ^ 2
  let p2 := -(2316 / 10000) * log OM - (3544 / 100000 * D * C)
  let p3 := (283 / 100000 * D * S) + (488 / 10000 * D * OM)
  let s1 := p1 + p2 + p3
  forceL (10 * (exp s1 - 1) / (exp s1 + 1))

/-- Parameters of the transitional Brooks-Corey model.
Used in the model of pedotransfer.py:1279-1351. -/
structure TBC where
  psiB : ℝ
  c : ℝ
  lam : ℝ
  eta : ℝ
  G : ℝ

/-- `1 / alpha` (pedotransfer.py:1336-1340). -/
def invAlpha (alpha : ℝ) : ℝ := if alpha ≠ 0 then 1 / alpha else -9999

/-- `capillary_length_G` with `TBC=False` (pedotransfer.py:1165-1276), the only way it is called.
Where `2 - 3 m` is zero numpy divides 4 by zero and takes the gamma function at zero; both are
infinite and the sum is, so the check of the range puts in the upper limit.  Simplified: the poles of
the gamma function at the values of `m` below zero, which `n > 1` excludes, are not marked. -/
def capillaryG (n inv_alpha : ℝ) : ℝ :=
  let m := 1 - 1 / n
  if m = 1 then forceG (-inv_alpha)
  else if m = 0 then forceG 0
  else if 2 - 3 * m = 0 then 23 / 10
  else
    let coeff := -inv_alpha * (1 - m)
    let term1 := 4 / (2 - 3 * m)
    let term2 := Gamma (1 - m) / Gamma (m / 2) + Gamma (1 + m) / Gamma (5 * m / 2)
    let term3 := Gamma (3 * m / 2 - 1)
    forceG (coeff * (term1 + term2 * term3))

/-- `get_tBC_from_vG_vars` (pedotransfer.py:1279-1351). -/
def tbc (alpha n : ℝ) : TBC :=
  { psiB := invAlpha alpha
    c := n
    lam := n - 1
    eta := 3 * n - 1
    G := capillaryG n (invAlpha alpha) }

end

end Soil
