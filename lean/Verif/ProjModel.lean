import Mathlib.Analysis.SpecialFunctions.Pow.Real
import Mathlib.Analysis.SpecialFunctions.Trigonometric.Basic

/-!
# Map projections (topoflow/utils/projections.py)

All functions map a longitude and a latitude in degrees to map coordinates in meters.  Numbers are real
numbers (the code uses double precision floating-point numbers), `log`, `sin`, ... are those of the reals.
The printed report is not modelled.
-/

set_option autoImplicit false

noncomputable section

namespace Proj

open Real

/-- `d2r` (projections.py:54, 126, 197, 252). -/
def d2r : ℝ := π / 180

/-! ## Albers, sphere -/

/-- `n` (projections.py:61-67). -/
def sphN : ℝ := (sin (29.5 * d2r) + sin (45.5 * d2r)) / 2

/-- `C` (projections.py:68). -/
def sphC : ℝ := cos (29.5 * d2r) ^ 2 + 2 * sphN * sin (29.5 * d2r)

/-- `rho` and `rho0` (projections.py:69-70). -/
def sphRho (lat : ℝ) : ℝ := 6378137 / sphN * √(sphC - 2 * sphN * sin lat)

/-- `Albers_XY_Sphere`, projections.py:34-82. -/
def albersSphere (lonDeg latDeg : ℝ) : ℝ × ℝ :=
  let lat := latDeg * d2r
  let lon := lonDeg * d2r
  let lon0 := -96.0 * d2r
  let lat0 := 23.0 * d2r
  let rho := sphRho lat
  let rho0 := sphRho lat0
  let theta := sphN * (lon - lon0)
  (rho * sin theta, rho0 - rho * cos theta)

/-! ## Albers, ellipsoid -/

/-- `Albers_q_for_Ellipsoid`, projections.py:84-94. -/
def albersQ (lat e : ℝ) : ℝ :=
  let term1 := sin lat / (1 - (e * sin lat) ^ 2)
  let term2 := log ((1 - e * sin lat) / (1 + e * sin lat))
  let term2 := term2 / (2 * e)
  (1 - e ^ 2) * (term1 - term2)

/-- `f` (projections.py:134). -/
def ellF : ℝ := 1 / 298.257222101004

/-- `e` (projections.py:135). -/
def ellE : ℝ := √(ellF * (2 - ellF))

/-- `m1`, `m2` (projections.py:141-142). -/
def ellM (lat : ℝ) : ℝ := cos lat / √(1 - (ellE * sin lat) ^ 2)

/-- `n` (projections.py:147). -/
def ellN : ℝ :=
  (ellM (29.5 * d2r) ^ 2 - ellM (45.5 * d2r) ^ 2) /
    (albersQ (45.5 * d2r) ellE - albersQ (29.5 * d2r) ellE)

/-- `C` (projections.py:148). -/
def ellC : ℝ := ellM (29.5 * d2r) ^ 2 + ellN * albersQ (29.5 * d2r) ellE

/-- `rho` and `rho0` (projections.py:149-150). -/
def ellRho (lat : ℝ) : ℝ := 6378137 / ellN * √(ellC - ellN * albersQ lat ellE)

/-- `Albers_XY_Ellipsoid`, projections.py:96-162. -/
def albersEllipsoid (lonDeg latDeg : ℝ) : ℝ × ℝ :=
  let lat := latDeg * d2r
  let lon := lonDeg * d2r
  let lon0 := -96.0 * d2r
  let lat0 := 23.0 * d2r
  let rho := ellRho lat
  let rho0 := ellRho lat0
  let theta := ellN * (lon - lon0)
  (rho * sin theta, rho0 - rho * cos theta)

/-! ## Lambert azimuthal equal area -/

/-- `Lambert_Azimuthal_Equal_Area_XY`, projections.py:165-228; `lon0` and `lat1` are arguments with
defaults -100 and 45.  At the point opposite to the origin the code divides by zero (here: the result is
`(0, 0)`). -/
def lambert (lon lat lon0 lat1 : ℝ) : ℝ × ℝ :=
  let R : ℝ := 6370997
  let lonDiff := lon * d2r - lon0 * d2r
  let latR := lat * d2r
  let lat1R := lat1 * d2r
  let kterm1 := sin lat1R * sin latR
  let kterm2 := cos lat1R * cos latR * cos lonDiff
  let kp := √(2 / (1 + kterm1 + kterm2))
  let x := R * kp * cos latR * sin lonDiff
  let yterm1 := cos lat1R * sin latR
  let yterm2 := sin lat1R * cos latR * cos lonDiff
  (x, R * kp * (yterm1 - yterm2))

/-! ## Mercator -/

/-- `e` of the ellipsoid (projections.py:269-271). -/
def mercE : ℝ := √(1 - (6356752.314245 / 6378137) ^ (2 : ℝ))

/-- `Mercator_XY`, projections.py:230-282. -/
def mercator (lon lat lon0 : ℝ) (sphere : Bool) : ℝ × ℝ :=
  let lonDiff := lon * d2r - lon0 * d2r
  let latR := lat * d2r
  if sphere then
    (6370997 * lonDiff, 6370997 * log (tan (π / 4 + latR / 2)))
  else
    let factor := (1 - mercE * sin latR) / (1 + mercE * sin latR)
    let factor := factor ^ (mercE / 2)
    (6378137 * lonDiff, 6378137 * log (tan (π / 4 + latR / 2) * factor))

end Proj
