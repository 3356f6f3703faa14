import Mathlib.Algebra.Order.Field.Basic
import Mathlib.Data.List.Basic
import Mathlib.Data.List.Sort
import Mathlib.Data.String.Basic

/-!
# Model of the preparation of rainfall and weather grids (topoflow/utils/regrid.py)

GDAL is outside the model: a raster is its size, its geotransform, its nodata value and its values;
`gdal.Warp` onto the DEM grid is an arbitrary function `warp` from rasters to flat grids.
Arithmetic is exact.  Messages are not modelled.
-/

set_option autoImplicit false

namespace Regrid

variable {K : Type*} [Field K] [LinearOrder K]

/-- A raster as GDAL presents it.  Used in the model of regrid.py:77-115. -/
structure Raster (K : Type*) where
  ncols : ℕ
  nrows : ℕ
  ulx : K
  xres : K
  xskew : K
  uly : K
  yskew : K
  yres : K
  nodata : Option K
  /-- value in row and column -/
  val : ℕ → ℕ → K

/-- A bounding box `[xmin, ymin, xmax, ymax]`.  Used in the model of regrid.py:77-115. -/
structure Box (K : Type*) where
  xmin : K
  ymin : K
  xmax : K
  ymax : K

/-- `get_raster_bounds` (regrid.py:77-115). -/
def bounds (r : Raster K) : Box K where
  xmin := r.ulx
  ymin := r.uly + r.nrows * r.yres
  xmax := r.ulx + r.ncols * r.xres
  ymax := r.uly

/-- `bounds_disjoint` (regrid.py:128-156). -/
def boundsDisjoint (b1 b2 : Box K) : Bool :=
  decide (b2.xmin > b1.xmax) || decide (b2.xmax < b1.xmin) ||
  decide (b2.ymax < b1.ymin) || decide (b2.ymin > b1.ymax)

/-- `get_raster_cellsize` (regrid.py:161-172). -/
def cellsize (r : Raster K) : K × K := (r.xres, |r.yres|)

/-- `fix_gpm_file_as_geotiff` (regrid.py:977-1073) followed by `gdal.Open` of the new file, with
`out_nodata=None` as in the callers: the array is rotated by 90 degrees counter-clockwise
(`np.rot90(a)[i, j] = a[j, ncols - 1 - i]`) and gets a new geotransform.  No nodata value is set in
the new file. -/
def fixGpm (r : Raster K) : Raster K where
  ncols := r.nrows
  nrows := r.ncols
  ulx := (bounds r).ymin
  xres := -r.yres
  xskew := r.yskew
  uly := (bounds r).xmax
  yskew := r.xskew
  yres := -r.xres
  nodata := none
  val := fun i j => r.val j (r.ncols - 1 - i)

/-- The unit conversions for GLDAS variables at one cell (regrid.py:1349-1376): `w` masks the nodata
value; the name of the variable meets at most one of the conditions. -/
def convert (var : String) (nodata : Option K) (v : K) : K :=
  if nodata = some v then v
  else if var = "Rainf_f_tavg" ∨ var = "Rainf_tavg" then v * 3600
  else if var = "Tair_f_inst" ∨ var = "AvgSurfT_tavg" ∨ var = "AvgSurfT_inst" ∨
      var = "SnowT_tavg" then v - 27315 / 100
  else if var = "Albedo_inst" then v / 100
  else if var = "Psurf_f_inst" then v / 100
  else v

/-- The unit reported for the variables that are converted, and a few others (regrid.py:1415-1491). -/
def gldasUnits (var : String) : String :=
  if var = "Rainf_tavg" ∨ var = "Rainf_f_tavg" then "mm h-1"
  else if var = "Tair_f_inst" ∨ var = "AvgSurfT_tavg" ∨ var = "AvgSurfT_inst" ∨
      var = "SnowT_tavg" then "C"
  else if var = "Albedo_inst" then "none [0,1]"
  else if var = "Psurf_f_inst" then "Pa"
  else "other"

/-- What the loop over the files keeps.  Used in the model of regrid.py:1235-1240. -/
structure Acc (K : Type*) where
  /-- grids written to the RTS file -/
  frames : List (List K)
  count : ℕ
  vmax : K
  vmin : K
  badCount : ℕ
  badFile : Bool

/-- Before the loop (regrid.py:1235-1240). -/
def acc0 : Acc K where
  frames := []
  count := 0
  vmax := -(10 ^ 8)
  vmin := 10 ^ 8
  badCount := 0
  badFile := false

/-- The settings of one call: DEM box and number of cells, product and variable.
Used in the model of regrid.py:1243-1385. -/
structure Job (K : Type*) where
  dem : Box K
  nCells : ℕ
  gpm : Bool
  var : String

/-- One file (regrid.py:1243-1385): GPM files are repaired first; `BAD_FILE` is set when the boxes are
disjoint and is not reset; grids have at least one cell. -/
def ncStep (j : Job K) (warp : Raster K → List K) (s : Acc K) (file : Raster K) : Acc K :=
  let ds := if j.gpm then fixGpm file else file
  let disjoint := boundsDisjoint (bounds ds) j.dem
  let badCount := if disjoint then s.badCount + 1 else s.badCount
  let badFile := if disjoint then true else s.badFile
  let grid2 := if !badFile then warp ds else List.replicate j.nCells 0
  let grid2 := if j.gpm then grid2 else grid2.map (convert j.var ds.nodata)
  { frames := s.frames ++ [grid2]
    count := s.count + 1
    vmax := grid2.foldl max s.vmax
    vmin := grid2.foldl min s.vmin
    badCount := badCount
    badFile := badFile }

/-- `create_rts_from_nc_files` (regrid.py:1120-1500): the files of the directory in the order of their
names. -/
def createFromNc (j : Job K) (warp : Raster K → List K) (dir : List (String × Raster K)) : Acc K :=
  ((dir.insertionSort (fun a b => a.1 ≤ b.1)).map Prod.snd).foldl (ncStep j warp) acc0

/-- One value of a CHIRPS frame after reading (regrid.py:1600-1627): division by the length of the
interval; flipping of rows and byte order are left out. -/
def chirpsIn (hours v : K) : K := v / hours

/-- One value after the clip to the DEM (regrid.py:1721-1737). -/
def chirpsOut (nonNegative : Bool) (v : K) : K :=
  let v := if v ≠ -1 then v * 3600 else v
  if nonNegative && decide (v < 0) then 0 else v

/-- `create_rts_from_chirps_files` (regrid.py:1507-1784): each file is a grid of rainfall depths per
interval; `warp` clips and resamples a grid to the DEM; all files have the box of CHIRPS Africa
(`chirpsBox`), and the program stops at the first file if it does not overlap the DEM. -/
def createFromChirps (chirpsBox dem : Box K) (warp : List K → List K) (hours : K)
    (nonNegative : Bool) (files : List (List K)) : Except String (List (List K)) :=
  if files ≠ [] ∧ boundsDisjoint chirpsBox dem then .error "SystemExit"
  else .ok (files.map (fun g => (warp (g.map (chirpsIn hours))).map (chirpsOut nonNegative)))

end Regrid
