import Mathlib.Data.Nat.Log
import Mathlib.Data.Rat.Defs
import Mathlib.Algebra.Order.Field.Rat

set_option autoImplicit false

/-!
# The start of the landscape evolution model (components/erode_base.py, utils/midpoints.py): initial surface and boundary
conditions

Elevations are exact numbers; a grid with `ny` rows and `nx` columns is a function of row and column.
-/

namespace ErodeInit

/-- A grid.  Used in the model of erode_base.py:490-700. -/
abbrev Grid := ℕ → ℕ → ℚ

/-- What the configuration file gives (erode_base.py:455-468): the names of the methods as they are written there, converted to
upper case by `set_computed_input_vars` except where said. -/
structure Cfg where
  /-- `make_z0_method` as written -/
  z0 : String
  /-- `make_z0_method.upper()` -/
  z0Upper : String
  /-- `noise_method.upper()` -/
  noise : String
  /-- `BC_method.upper()` -/
  bc : String
  noiseScale : ℚ
  dzdx : ℚ
  dzdy : ℚ
  dx : ℚ
  dy : ℚ

/-- The levels of the fractal surface (erode_base.py:624-626): the base 2 logarithm of the longer side minus one, rounded
up. -/
def nLevels (ny nx : ℕ) : ℕ := Nat.clog 2 (max nx ny - 1)

/-- `make_fractal_surface` (midpoints.py:33-266) with the random numbers `v` of the four corners: `none` is returned above 11
levels (59-65).  In the first level the cells are addressed with numbers that are not whole (`step = step / 2`, line 125; 157-164),
which is an error. -/
def fractal (n : ℕ) (v : Grid) : Except String (Option Grid) :=
  if 11 < n then .ok none
  else if n = 0 then .ok (some v)
  else .error "IndexError: unsupported iterator index"

/-- The noise of `create_initial_DEM` (erode_base.py:602-635); `g` are the random numbers.  `float32` is not defined in this
file. -/
def noiseGrid (c : Cfg) (ny nx : ℕ) (g : Grid) : Except String Grid :=
  if c.noise = "GAUSSIAN" then .ok (fun i j => c.noiseScale * g i j)
  else if c.noise = "MIDPOINTS" then
    match fractal (nLevels ny nx) g with
    | .error e => .error e
    | .ok none => .error "TypeError: 'NoneType' object is not subscriptable"
    | .ok (some s) => .ok (fun i j => c.noiseScale * s i j)
  else .error "NameError: name 'float32' is not defined"

/-- `create_initial_DEM` (erode_base.py:569-700).  `sqrt` is not defined in this file (line 675). -/
def createDEM (c : Cfg) (ny nx : ℕ) (g : Grid) : Except String Grid :=
  match noiseGrid c ny nx g with
  | .error e => .error e
  | .ok z =>
    let z1 : Grid := if c.z0Upper = "PLANE" then
        fun i j => z i j + (c.dzdx * (c.dx * j) + c.dzdy * (c.dy * ((ny : ℚ) - 1 - i)))
      else z
    if c.z0Upper = "CORNER_PLANE" then .error "NameError: name 'sqrt' is not defined" else .ok z1

/-- The data type of the file with the initial surface (erode_base.py:503-515), from its size. -/
def typeOfSize (ny nx size : ℕ) : Option String :=
  if size = nx * ny * 8 then some "DOUBLE"
  else if size = nx * ny * 4 then some "FLOAT"
  else if size = nx * ny * 2 then some "INTEGER"
  else none

/-- `initialize_DEM` (erode_base.py:490-566): `file` reads the file as the given type; no grid is set when the type is not
found. -/
def initDEM (c : Cfg) (ny nx size : ℕ) (file : String → Grid) (g : Grid) : Except String (Option Grid) :=
  if c.z0 = "READ_FILE" then .ok ((typeOfSize ny nx size).map file)
  else
    match createDEM c ny nx g with
    | .error e => .error e
    | .ok z => .ok (some z)

/-- Rows addressed with the numbers of a list: `DEM[ids]` of a grid with two dimensions addresses rows
(erode_base.py:726, 744). -/
def rowsOk (ny : ℕ) (ids : List ℕ) : Bool := ids.all (fun k => decide (k < ny))

/-- `initialize_boundary_conditions` (erode_base.py:703-776), the grid and the base level cells; the methods exclude each
other, since each is a comparison with `BC_method`.  With another name no base level cells are set; the first use of them
(erode_d8_global.py:800) is an error, which is given here. -/
def boundary (c : Cfg) (ny nx : ℕ) (z : Grid) : Except String (Grid × List ℕ) :=
  if c.bc = "BOTTOM" then
    let base := (List.range nx).map (fun k => k + nx * (ny - 1))
    let top := List.range nx
    let row2 := (List.range nx).map (fun k => k + nx)
    if rowsOk ny row2 && rowsOk ny top then .ok (fun i j => if i < nx then z (i + nx) j else z i j, base)
    else .error "IndexError: index is out of bounds for axis 0"
  else if c.bc = "RIGHT" then
    let base := (List.range ny).map (fun k => nx * (k + 1) - 1)
    let left := (List.range ny).map (fun k => k * nx)
    if rowsOk ny left then .ok (fun i j => if i ∈ left then 0 else z i j, base)
    else .error "IndexError: index is out of bounds for axis 0"
  else if c.bc = "FOUR_SIDES" then
    let t := List.range nx
    let b := t.map (fun k => k + nx * (ny - 1))
    let l := (List.range (ny - 2)).map (fun k => nx * (k + 1))
    let r := l.map (fun k => k + (nx - 1))
    .ok (z, t ++ b ++ l ++ r)
  else if c.bc = "CORNER" then .error "ValueError: zero-dimensional arrays cannot be concatenated"
  else .error "AttributeError: no attribute 'base_IDs'"

end ErodeInit
