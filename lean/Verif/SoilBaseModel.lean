import Mathlib.Analysis.SpecialFunctions.Pow.Real

/-!
# Soil properties of a texture class (topoflow/components/soil_base.py)

`topoflow/components/soil_funcs.py` holds the same functions once more, without any import: every
call of one of them raises NameError, so only `soil_base.py` is modelled.

Real numbers stand for the floating point numbers: the table is taken as written (the code rounds it
to float32).  A power that numpy answers with nan or inf is `none`.  Division by zero is not
modelled (the theorems exclude it).  The reports are left out; with `REPORT=True`, three of the
functions read attributes that are not set yet.
-/

set_option autoImplicit false

namespace SoilBase

noncomputable section

open Classical in
/-- numpy's `x ** y` for floats: nan for a negative base and an exponent that is no integer, inf for
zero to a negative power.  Used in the model of soil_base.py:173-176. -/
def npow (x y : ℝ) : Option ℝ :=
  if x = 0 ∧ y < 0 then none
  else if x < 0 ∧ ¬ ∃ n : ℤ, y = n then none
  else some (x ^ y)

/-- The attributes the functions read.  Used in the model of soil_base.py:173-176. -/
structure Soil where
  thetaS : ℝ
  thetaR : ℝ
  psiB : ℝ
  psiA : ℝ
  c : ℝ
  lam : ℝ
  Ks : ℝ
  eta : ℝ

/-- The lines shared by `theta_min` (soil_base.py:173-176), `theta_wilting` (202-205) and
`theta_field` (231-234). -/
def thetaAt (s : Soil) (psi : ℝ) : Option ℝ :=
  let ratio := (psi + s.psiA) / s.psiB
  match npow ratio s.c with
  | none => none
  | some r =>
    match npow (1 + r) (-s.lam / s.c) with
    | none => none
    | some t => some (t * (s.thetaS - s.thetaR) + s.thetaR)

/-- `theta_min`, soil_base.py:152-192. -/
def thetaMin (s : Soil) : Option ℝ := thetaAt s (-31000 / 100)

/-- `theta_wilting`, soil_base.py:194-221. -/
def thetaWilting (s : Soil) : Option ℝ := thetaAt s (-15000 / 100)

/-- `theta_field`, soil_base.py:223-250. -/
def thetaField (s : Soil) : Option ℝ := thetaAt s (-340 / 100)

/-- `theta_residual`, soil_base.py:112-150. -/
def thetaResidual (thetaS psiB lam : ℝ) : Option ℝ :=
  let psi_r := -1000000 / 100
  (npow (psiB / psi_r) lam).map (thetaS * ·)

/-- `theta_max`, soil_base.py:252-284: for `r0 >= K_s` the name `theta_s` is not defined (267). -/
def thetaMax (s : Soil) (r0 : ℝ) : Except String (Option ℝ) :=
  open Classical in
  if r0 < s.Ks then
    let eps := s.eta / s.lam
    .ok ((npow (r0 / s.Ks) (1 / eps)).map (fun arg => s.thetaR + (s.thetaS - s.thetaR) * arg))
  else .error "NameError"

/-- `K_of_theta`, soil_base.py:65-110 (it sets `eta` anew, 88).  `np.minimum` and `np.maximum` hand
nan on. -/
def kOfTheta (s : Soil) (theta : ℝ) : Option ℝ :=
  let eta := 2 + 3 * s.lam
  let eps := eta / s.lam
  (npow ((theta - s.thetaR) / (s.thetaS - s.thetaR)) eps).map (fun Kr => s.Ks * max (min Kr 1) 0)

/-- The table rows, soil_base.py:303-315: porosity, `K_s` in cm/s, `psi_B` in cm, `b`, `G` in mm;
with the names of `soil_type_list(FORM2=True)`, 55-58. -/
def table : List (String × ℚ × ℚ × ℚ × ℚ × ℚ) :=
  [("sand", 395 / 1000, 176 / 10000, 121 / 10, 405 / 100, 82),
   ("loamy_sand", 410 / 1000, 156 / 10000, 9, 438 / 100, 97),
   ("sandy_loam", 435 / 1000, 347 / 100000, 218 / 10, 490 / 100, 165),
   ("silt_loam", 485 / 1000, 720 / 1000000, 786 / 10, 530 / 100, 724),
   ("loam", 451 / 1000, 695 / 1000000, 478 / 10, 539 / 100, 385),
   ("sandy_clay_loam", 420 / 1000, 630 / 1000000, 299 / 10, 712 / 100, 240),
   ("silty_clay_loam", 477 / 1000, 170 / 1000000, 356 / 10, 775 / 100, 1590),
   ("clay_loam", 476 / 1000, 245 / 1000000, 63, 852 / 100, 804),
   ("sandy_clay", 426 / 1000, 217 / 1000000, 153 / 10, 104 / 10, 589),
   ("silty_clay", 492 / 1000, 103 / 1000000, 49, 104 / 10, 3570),
   ("clay", 482 / 1000, 128 / 1000000, 405 / 10, 114 / 10, 2230)]

/-- The attributes that `initialize` sets.  Used in the model of soil_base.py:286-431. -/
structure Attrs where
  porosity : ℝ
  b : ℝ
  G : ℝ
  soil : Soil
  thetaI : Option ℝ
  thetaH : Option ℝ
  thetaW : Option ℝ
  thetaF : Option ℝ
  thetaU : Option ℝ
  Ki : Option ℝ

/-- `initialize`, soil_base.py:286-431, for the soil type in lower case: `none` when the name is not
in the list (a message is printed, no attribute is set, 331-337).  A residual content of nan cannot
occur for a table row; the model then takes 0. -/
def initialize' (soilType : String) : Except String (Option Attrs) :=
  match table.find? (fun r => r.1 == soilType) with
  | none => .ok none
  | some (_, por, ks, pb, b, g) =>
    let Ks : ℝ := (ks : ℝ) / 100
    let psiB : ℝ := -1 * ((pb : ℝ) / 100)
    let G : ℝ := (g : ℝ) / 1000
    let lam : ℝ := 1 / (b : ℝ)
    let s : Soil :=
      { thetaS := (por : ℝ)
        thetaR := (thetaResidual por psiB lam).getD 0
        psiB := psiB
        psiA := 0
        c := 1
        lam := lam
        Ks := Ks
        eta := 2 + 3 * lam }
    let r0 := s.Ks * (95 / 100)
    match thetaMax s r0 with
    | .error e => .error e
    | .ok u =>
      .ok (some
        { porosity := (por : ℝ)
          b := (b : ℝ)
          G := G
          soil := s
          thetaI := thetaField s
          thetaH := thetaMin s
          thetaW := thetaWilting s
          thetaF := thetaField s
          thetaU := u
          Ki := match thetaField s with
            | none => none
            | some t => kOfTheta s t })

end

end SoilBase
