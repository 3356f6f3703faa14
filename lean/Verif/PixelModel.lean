import Mathlib.Analysis.SpecialFunctions.Pow.Real
import Mathlib.Analysis.SpecialFunctions.Trigonometric.Basic

/-!
# Pixel dimensions

topoflow/utils/pixels.py, over the reals.
-/

set_option autoImplicit false

noncomputable section

namespace Pixel

open Real

/-- `f` and `e` of pixels.py:283-284 and 335-336: the eccentricity of the ellipsoid. -/
def ecc (a b : ℝ) : ℝ :=
  let f := (a - b) / a
  √(2 * f - f ^ 2)

/-- `meters_per_degree_lon` (pixels.py:235-297). -/
def metersPerDegreeLon (a b elev lat : ℝ) : ℝ :=
  let e := ecc a b
  let dtor := π / 180
  let lat_rad := lat * dtor
  let p1 := elev * cos lat_rad
  let p2 := a * cos lat_rad / √(1 - (e * sin lat_rad) ^ 2)
  dtor * (p1 + p2)

/-- `meters_per_degree_lat` (pixels.py:299-350). -/
def metersPerDegreeLat (a b elev lat : ℝ) : ℝ :=
  let e := ecc a b
  let dtor := π / 180
  let lat_rad := lat * dtor
  let p := a * (1 - e ^ 2) / (1 - (e * sin lat_rad) ^ 2) ^ (1.5 : ℝ)
  dtor * (elev + p)

/-- What the pixel functions use of the grid description; `geom` is `pixel_geom`, resolutions are in arc seconds if it
is 0 (pixels.py:71-171). -/
structure Info where
  geom : ℕ
  nrows : ℕ
  ncols : ℕ
  xres : ℝ
  yres : ℝ
  yN : ℝ

/-- The default radii (pixels.py:236-237). -/
def aWGS : ℝ := 6378137
/-- Used in the model of pixels.py:71-171. -/
def bWGS : ℝ := 63567523 / 10

/-- `lats[i]` (pixels.py:115-117): the latitude of the south edge of row `i`. -/
def rowLat (g : Info) (i : ℕ) : ℝ :=
  let yresdeg := g.yres / 3600
  g.yN - yresdeg * ((i : ℝ) + 1)

/-- `dx[i], dy[i], dd[i]` of `get_sizes_by_row` (pixels.py:71-171).  Simplified: row numbers are not limited to 16
bits. -/
def sizesByRow (g : Info) (meters : Bool) (i : ℕ) : ℝ × ℝ × ℝ :=
  let ufactor : ℝ := if meters then 1 else 1000
  if g.geom = 0 then
    let lat := rowLat g i
    let dx := g.xres / 3600 * metersPerDegreeLon aWGS bWGS 0 lat / ufactor
    let dy := g.yres / 3600 * metersPerDegreeLat aWGS bWGS 0 lat / ufactor
    (dx, dy, √(dx ^ 2 + dy ^ 2))
  else
    let dx := g.xres / ufactor
    let dy := g.yres / ufactor
    (dx, dy, √(dx ^ 2 + dy ^ 2))

/-- `get_da` (pixels.py:173-233) at row `i` and column `j`, by `np.reshape(np.repeat(da_by_row, nx), (ny, nx))`: the
value at position `i * nx + j` of the repeated list.  For fixed-length pixels the scalar counts for every cell. -/
def cellArea (g : Info) (i j : ℕ) : ℝ :=
  if g.geom = 1 then
    (sizesByRow g true 0).1 * (sizesByRow g true 0).2.1
  else
    let daByRow := (List.range g.nrows).map fun k => (sizesByRow g true k).1 * (sizesByRow g true k).2.1
    let repeated := daByRow.flatMap fun v => List.replicate g.ncols v
    repeated.getD (i * g.ncols + j) 0

end Pixel
