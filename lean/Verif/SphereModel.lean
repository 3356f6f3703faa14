import Mathlib.Analysis.SpecialFunctions.Trigonometric.Inverse
import Mathlib.Algebra.Order.Floor.Ring
import Verif.ProjModel

/-!
# Places on the sphere: distances, closest gauge, boxes and land-class codes

Model of the functions of `topoflow/utils/ngen/` that work with longitudes and latitudes of basins:
`usgs_utils.py` (haversine, distance_on_sphere, get_closest_site), `data_utils.py`
(convert_dms_to_dec_deg), `shape_utils.py` (get_bounding_box, check_bounding_box) and `hlr_utils.py`
(point_in_rectangle, get_hlr_code_for_point).

Simplifications: floating point numbers are real numbers (so the roundoff that can push the argument of
`arcsin` a little above 1 for opposite points is not modelled); printed reports are left out.
-/

set_option autoImplicit false

noncomputable section

namespace Sphere

open Real

/-! ## Distances -/

/-- `haversine`, usgs_utils.py:1876-1886. -/
def haversine (lon1 lat1 lon2 lat2 : ℝ) : ℝ :=
  let p := π / 180
  let term1 := cos ((lat2 - lat1) * p) / 2
  let term2 := cos (lat1 * p) * cos (lat2 * p)
  let term3 := (1 - cos ((lon2 - lon1) * p)) / 2
  0.5 - term1 + term2 * term3

/-- `distance_on_sphere`, usgs_utils.py:1888-1900 (in km; the number is the diameter of the Earth). -/
def distanceOnSphere (lon1 lat1 lon2 lat2 : ℝ) : ℝ :=
  12742 * arcsin (√(haversine lon1 lat1 lon2 lat2))

/-- A row of `site_coords`: id, longitude, latitude (usgs_utils.py:1908-1910, after the conversion to
numbers). -/
structure Site where
  id : String
  lon : ℝ
  lat : ℝ

/-- What `get_closest_site` returns: either the words "unknown" with -999 (usgs_utils.py:1915-1919) or the
id, the longitude, the latitude and the distance of a site. -/
inductive Found where
  | unknown
  | site (s : Site) (dmin : ℝ)

/-- `np.argmin` and `min` (usgs_utils.py:1923-1924): the first of the sites at the smallest distance. -/
def argminFrom (d : Site → ℝ) : Site → List Site → Site
  | best, [] => best
  | best, s :: rest => if d s < d best then argminFrom d s rest else argminFrom d best rest

/-- `get_closest_site`, usgs_utils.py:1902-1937.  `none` models the ValueError of `min` of an empty array. -/
def getClosestSite (sites : List Site) (lon lat : ℝ) : Option Found :=
  if lon ≤ -999 ∨ lat < -90 ∨ lat > 90 then some .unknown
  else
    let d : Site → ℝ := fun s => distanceOnSphere s.lon s.lat lon lat
    match sites with
    | [] => none
    | s :: rest =>
      let best := argminFrom d s rest
      some (.site best (d best))

/-! ## Degrees, minutes, seconds -/

/-- The number written in the first word of a coordinate: its minus sign, if any, and its size.  `float`
keeps the sign of "-0", but `-0.0 < 0` is false. -/
structure Signed where
  neg : Bool
  mag : ℝ

/-- The value of the number. -/
def Signed.val (x : Signed) : ℝ := if x.neg then -x.mag else x.mag

/-- `convert_dms_to_dec_deg`, data_utils.py:1317-1345 (the same formulas are in usgs_utils.py:1800-1822),
after the text has been split into three words. -/
def convertDms (D : Signed) (M S : ℝ) : ℝ :=
  if D.val < 0 then D.val - M / 60 - S / 3600 else D.val + M / 60 + S / 3600

/-! ## Boxes -/

/-- `np.around(x, decimals)`: the nearest multiple of `10^-decimals`, halves to the even one. -/
def around (decimals : ℕ) (x : ℝ) : ℝ :=
  let y := x * 10 ^ decimals
  let f : ℤ := ⌊y⌋
  let r := y - f
  let n : ℤ := if r < 1 / 2 then f else if 1 / 2 < r then f + 1 else if f % 2 = 0 then f else f + 1
  (n : ℝ) / 10 ^ decimals

/-- A box: `minlon, maxlon, minlat, maxlat`. -/
structure Box where
  minlon : ℝ
  maxlon : ℝ
  minlat : ℝ
  maxlat : ℝ

/-- `x2.min()` of an array with first element `x`. -/
def minFrom : ℝ → List ℝ → ℝ
  | m, [] => m
  | m, x :: rest => minFrom (min m x) rest

/-- `x2.max()`. -/
def maxFrom : ℝ → List ℝ → ℝ
  | m, [] => m
  | m, x :: rest => maxFrom (max m x) rest

/-- `get_bounding_box`, shape_utils.py:636-670, for arrays (`none` models the ValueError of `min` of an empty
array).  The vertices are given as pairs (longitude, latitude). -/
def getBoundingBox (pts : List (ℝ × ℝ)) (buffer : ℝ) (decimals : ℕ) : Option Box :=
  match pts with
  | [] => none
  | p :: rest =>
    let minlon := minFrom p.1 (rest.map Prod.fst) - buffer
    let maxlon := maxFrom p.1 (rest.map Prod.fst) + buffer
    let minlat := minFrom p.2 (rest.map Prod.snd) - buffer
    let maxlat := maxFrom p.2 (rest.map Prod.snd) + buffer
    some { minlon := around decimals minlon
           maxlon := around decimals maxlon
           minlat := around decimals minlat
           maxlat := around decimals maxlat }

/-- `get_bounding_box` for one point given as two numbers (shape_utils.py:650-654). -/
def getBoundingBoxPoint (x y : ℝ) (buffer : ℝ) (decimals : ℕ) : Box :=
  { minlon := around decimals (x - buffer)
    maxlon := around decimals (x + buffer)
    minlat := around decimals (y - buffer)
    maxlat := around decimals (y + buffer) }

open Classical in
/-- `check_bounding_box`, shape_utils.py:672-708 and gages2_utils.py:583-592. -/
def checkBoundingBox (lon lat : ℝ) (b : Box) : Bool :=
  let inRange := true
  let inRange := if lon < b.minlon ∨ lon > b.maxlon then false else inRange
  if lat < b.minlat ∨ lat > b.maxlat then false else inRange

open Classical in
/-- `point_in_rectangle`, hlr_utils.py:1756-1804: `A` is the upper left and `C` the lower right corner. -/
def pointInRectangle (xP yP xA yA xC yC : ℝ) : Bool :=
  let inX := decide (xP ≥ xA) && decide (xP ≤ xC)
  let inY := decide (yP ≥ yC) && decide (yP ≤ yA)
  inX && inY

/-! ## Land-class codes -/

/-- The entries of `grid_info` that are used (hlr_utils.py:1524-1550) and the shape of the code grid. -/
structure GridInfo where
  ncols : ℕ
  nrows : ℕ
  dx : ℝ
  dy : ℝ
  xmin : ℝ
  xmax : ℝ
  ymin : ℝ
  ymax : ℝ

/-- `get_hlr_grid_info`, hlr_utils.py:1524-1550. -/
def hlrGridInfo : GridInfo :=
  { ncols := 9106
    nrows := 6855
    dx := 1000
    dy := 1000
    xmin := -6175016.6
    xmax := 2930983.4
    ymin := -2530809.6
    ymax := 4324190.4 }

/-- Indexing of one axis of a numpy array: negative indices count from the end, others out of range are an
IndexError (`none`). -/
def npIndex (n : ℕ) (i : ℤ) : Option ℕ :=
  if 0 ≤ i then (if i < n then some i.toNat else none)
  else if 0 ≤ n + i then some (n + i).toNat else none

/-- `np.int32(x)`: truncation toward zero (overflow is not modelled: the quotients are below the number of
rows or columns). -/
def npInt (x : ℝ) : ℤ := if 0 ≤ x then ⌊x⌋ else ⌈x⌉

/-- The part of `get_hlr_code_for_point` after the coordinates have been projected
(hlr_utils.py:1703-1736); `none` models an IndexError. -/
def codeAt (g : GridInfo) (code : ℕ → ℕ → ℤ) (x y : ℝ) : Option String :=
  let inX := x > g.xmin ∧ x < g.xmax
  let inY := y > g.ymin ∧ y < g.ymax
  if ¬ (inX ∧ inY) then some "0"
  else
    let col := npInt ((x - g.xmin) / g.dx)
    let row := npInt ((g.ymax - y) / g.dy)
    match npIndex g.nrows row, npIndex g.ncols col with
    | some r, some c => some (toString (code r c))
    | _, _ => none

/-- `get_hlr_code_for_point`, hlr_utils.py:1608-1754, with `USE_GDAL=False` and with both the grid and its
info given.  `number s` is what `float(s)` gives (`none`: ValueError, caught at line 1619).  At the point
opposite to the origin of the map the code divides by zero: the coordinates are then infinite or not numbers,
no comparison with the limits of the grid holds, and '0' is returned. -/
def hlrCodeForPoint (number : String → Option ℝ) (g : GridInfo) (code : ℕ → ℕ → ℤ) (lon lat : String) :
    Option String :=
  match number lon, number lat with
  | some lon2, some lat2 =>
    if lon = "-9999" ∨ lat = "-9999" then some "0"
    else
      let d2r := π / 180
      if 1 + sin (45 * d2r) * sin (lat2 * d2r)
          + cos (45 * d2r) * cos (lat2 * d2r) * cos (lon2 * d2r - (-100) * d2r) = 0 then some "0"
      else
        let xy := Proj.lambert lon2 lat2 (-100) 45
        codeAt g code xy.1 xy.2
  | _, _ => some "0"

end Sphere
