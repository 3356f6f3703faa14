import Verif.ChannelHydraulics

/-!
# Derived quantities of the channel component and the extremes reported at the end
(topoflow/components/channels_base.py)

Shear stress, shear speed, friction factor and Froude number, which `update()` computes between the
routing and the outlet values, and `update_mins_and_maxes`, called by `finalize()`.
Values are real numbers; the square root of a negative number (NaN in numpy) is 0 here.
-/

set_option autoImplicit false

noncomputable section

namespace Chan

open D8 (Cell)

variable {ny nx : ℕ}

/-- The quantities that other components may ask for.
Used in the model of channels_base.py:891-905. -/
structure Diag (ny nx : ℕ) where
  tau : Cell ny nx → ℝ
  uStar : Cell ny nx → ℝ
  f : Cell ny nx → ℝ
  froude : Cell ny nx → ℝ

/-- `self.g` and `self.kappa` (`set_constants`, channels_base.py:523-536). -/
def gConst : ℝ := 9.81

/-- See `gConst`.  Used in the model of channels_base.py:2714-2833. -/
def kappaConst : ℝ := 0.408

/-- `update_shear_stress`, channels_base.py:2620-2632; `rho` is the density delivered by the
meteorology component. -/
def shearStress (p : Params ny nx) (rho : ℝ) (s : St ny nx) (c : Cell ny nx) : ℝ :=
  let slope := if p.method = .kinematic then p.sBed c else |s.sFree c|
  rho * gConst * s.d c * slope

/-- `update_shear_speed`, channels_base.py:2634-2641. -/
def shearSpeed (p : Params ny nx) (rho : ℝ) (s : St ny nx) (c : Cell ny nx) : ℝ :=
  Real.sqrt (shearStress p rho s c / rho)

/-- `update_friction_factor`, channels_base.py:2714-2833 (`old` is the factor of the last step, kept
when neither law is chosen).  `d_is_pos` was set by `update_channel_depth` in the same step
(2388-2389), for the depth in `s`. -/
def frictionFactor (p : Params ny nx) (s : St ny nx) (old : Cell ny nx → ℝ) (c : Cell ny nx) : ℝ :=
  let f1 := if p.manning then
      (if 0 < s.d c then gConst * (p.nval c ^ 2 / s.d c ^ (1 / 3 : ℝ)) else 0)
    else old c
  if p.lawOfWall then
    (if 0 < s.d c then
      (kappaConst / Real.log (max (aval / p.z0val c * s.d c) (11 / 10))) ^ 2 else 0)
  else f1

/-- `update_froude_number`, channels_base.py:2867-2882. -/
def froudeNumber (s : St ny nx) (u : Cell ny nx → ℝ) (c : Cell ny nx) : ℝ :=
  if 0 < s.d c then u c / Real.sqrt (gConst * s.d c) else 0

/-- The part of `update()` from `update_shear_stress` to `update_froude_number`,
channels_base.py:891-905, beside `step`. -/
def stepDiag (p : Params ny nx) (net : Net ny nx) (rho : ℝ) (inp : Inp ny nx)
    (s : St ny nx) (g : Diag ny nx) : Except String (St ny nx × Diag ny nx) :=
  match step p net inp s with
  | .error e => .error e
  | .ok s' =>
    let s1 := routed p net inp s
    .ok (s', { tau := shearStress p rho s1
               uStar := shearSpeed p rho s1
               f := frictionFactor p s1 g.f
               froude := froudeNumber s1 s'.u })

/-- The values of a grid inside the slice `[1:ny-1, 1:nx-1]` (channels_base.py:3008-3017). -/
def interiorVals (x : Cell ny nx → ℝ) : List ℝ :=
  ((List.finRange ny).flatMap fun i => (List.finRange nx).map fun j => (i, j)).filterMap fun c =>
    if 1 ≤ c.1.val ∧ c.1.val < ny - 1 ∧ 1 ≤ c.2.val ∧ c.2.val < nx - 1 then some (x c) else none

/-- numpy `.min()` and `.max()` of an array: an error if it is empty.
Used in the model of channels_base.py:3010-3036. -/
def npMin : List ℝ → Except String ℝ
  | [] => .error "ValueError: zero-size array"
  | x :: xs => .ok (xs.foldl min x)

/-- See `npMin`.  Used in the model of channels_base.py:3010-3036. -/
def npMax : List ℝ → Except String ℝ
  | [] => .error "ValueError: zero-size array"
  | x :: xs => .ok (xs.foldl max x)

/-- One pair of lines of `update_mins_and_maxes`, channels_base.py:3010-3036: the smallest and
largest interior value replace the stored ones (`lo`, `hi`) if they are smaller or larger. -/
def minMaxUpd (x : Cell ny nx → ℝ) (lo hi : ℝ) : Except String (ℝ × ℝ) :=
  match npMin (interiorVals x), npMax (interiorVals x) with
  | .ok a, .ok b => .ok (if a < lo then a else lo, if b > hi then b else hi)
  | .error e, _ => .error e
  | _, .error e => .error e

/-- The six values.  Used in the model of channels_base.py:1484-1499. -/
structure Extremes where
  Q : ℝ × ℝ
  u : ℝ × ℝ
  d : ℝ × ℝ

/-- `initialize_min_and_max_values` (channels_base.py:1484-1499) and, at the end of the run,
`update_mins_and_maxes` (2986-3081, called by `finalize`, 964-991, and from nowhere else). -/
def finalExtremes (s : St ny nx) : Except String Extremes :=
  match minMaxUpd s.Q 1000000 (-1000000), minMaxUpd s.u 1000000 (-1000000),
      minMaxUpd s.d 1000000 (-1000000) with
  | .ok q, .ok u, .ok d => .ok ⟨q, u, d⟩
  | .error e, _, _ => .error e
  | _, .error e, _ => .error e
  | _, _, .error e => .error e

end Chan
