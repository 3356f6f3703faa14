import Mathlib.Analysis.SpecialFunctions.Exp
import Mathlib.Analysis.SpecialFunctions.Sqrt
import Mathlib.Data.Real.Sign
import Mathlib.Algebra.BigOperators.Group.Finset.Basic
import Mathlib.Algebra.Order.Floor.Ring
import Verif.NcModel

/-!
# Glacier ice: the GC2D module and the ice component

Model of topoflow/components/gc2d.py (one step of the valley glacier model and the loop of `run_model`) and of
`initialize`/`update` of topoflow/components/ice_base.py as far as they use it.

Grids of `ny` rows and `nx` columns are functions `ℕ → ℕ → ℝ` read at rows `< ny` and columns `< nx`.  The grids with a
halo have two more rows and columns; cell `(i, j)` of the grid is cell `(i+1, j+1)` there.  Quantities on faces between
cells of one row (suffix `X` in the code) have `nx + 1` columns: face `(i, j)` lies between the halo-grid cells
`(i+1, j)` and `(i+1, j+1)`.  Quantities on faces between cells of one column (suffix `Y`) have `ny + 1` rows.

Simplifications: floating-point numbers are real numbers, so there is no `nan` (the test of gc2d.py:1141-1144 never
fires) and a division by zero is `0` instead of `nan`; the theorems assume the divisors positive.  Where
`numpy.choose` evaluates both alternatives only the chosen one is modelled.
-/

set_option autoImplicit false

noncomputable section

open Finset

namespace Ice

/-- A grid of numbers.  Used in the model of gc2d.py:317. -/
abbrev Grid := ℕ → ℕ → ℝ

/-- class `BoundaryCond` (gc2d.py:155-162). -/
inductive BC where
  | badVal | iceFree | zeroFlux | constFlux | surfElev | surfSlope
  deriving DecidableEq

/-- class `MassBalance` (gc2d.py:141-151). -/
inductive MB where
  | badVal | zeroBalance | constantELA | elaLowering | elaTimeSeries | externalFunc | elaLowering2 | balanceFile
  | d18OTimeSeries
  deriving DecidableEq

/-- class `Parameters` (gc2d.py:166-224), the entries used below. -/
structure Params where
  g : ℝ
  rhoI : ℝ
  rhoW : ℝ
  dtMax : ℝ
  dtDefault : ℝ
  secPerYear : ℝ
  minGlacThick : ℝ
  glensA : ℝ
  usChar : ℝ
  taubChar : ℝ
  initELA : ℝ
  elaStepSize : ℝ
  elaStepInterval : ℝ
  gradBz : ℝ
  maxBz : ℝ
  tmin : ℝ

/-- class `Toggles` (gc2d.py:258-298), the entries used below. -/
structure Toggles where
  compress : Bool
  variableDt : Bool
  iceflow : Bool
  iceslide : Bool
  massBalance : MB
  west : BC
  east : BC
  south : BC
  north : BC

/-- The module state: the two classes, whose entries can be changed from outside.
Used in the model of gc2d.py:169-205. -/
structure Module where
  par : Params
  tog : Toggles

/-- The values of the classes when the module is imported (gc2d.py:169-205, 274-298).  Default values of arguments such
as `g=Parameters.g` are evaluated then, once. -/
def imported : Module where
  par :=
    { g := 9.81, rhoI := 917, rhoW := 1000, dtMax := 0.4 * 365 * 0.00274, dtDefault := 0.4 * 365 * 0.00274
      secPerYear := 3600 * 24 * 365, minGlacThick := 1, glensA := 6.8e-15 * 3.15e7 / 1e9, usChar := 10
      taubChar := 100000, initELA := 3350, elaStepSize := -50, elaStepInterval := 500, gradBz := 0.01, maxBz := 2
      tmin := 200 }
  tog :=
    { compress := false, variableDt := false, iceflow := true, iceslide := false, massBalance := .constantELA
      west := .iceFree, east := .iceFree, south := .iceFree, north := .iceFree }

/-! ### The sub-rectangle with ice -/

/-- First row with ice, last row with ice, first and last column with ice: `numpy.where( H != 0 )` and `min`, `max`
(gc2d.py:317, 321-324). -/
def rowMin (ny nx : ℕ) (H : Grid) : ℕ := sInf {i | i < ny ∧ ∃ j < nx, H i j ≠ 0}
/-- Used in the model of gc2d.py:303-349. -/
@[inherit_doc rowMin]
def rowMax (ny nx : ℕ) (H : Grid) : ℕ := sSup {i | i < ny ∧ ∃ j < nx, H i j ≠ 0}
/-- Used in the model of gc2d.py:303-349. -/
@[inherit_doc rowMin]
def colMin (ny nx : ℕ) (H : Grid) : ℕ := sInf {j | j < nx ∧ ∃ i < ny, H i j ≠ 0}
/-- Used in the model of gc2d.py:303-349. -/
@[inherit_doc rowMin]
def colMax (ny nx : ℕ) (H : Grid) : ℕ := sSup {j | j < nx ∧ ∃ i < ny, H i j ≠ 0}

/-- The number of rows and columns of the surface that `compress_grid` returns (gc2d.py:303-349). -/
def compressShape (ny nx : ℕ) (H : Grid) (compress : Bool) : ℕ × ℕ :=
  open Classical in
  if compress = true ∧ (∃ i < ny, ∃ j < nx, 1 < H i j) then
    (min ny (rowMax ny nx H + 2) - (rowMin ny nx H - 2), min nx (colMax ny nx H + 2) - (colMin ny nx H - 2))
  else (ny, nx)

/-- The surface `Zb + maximum(H, 0)` (gc2d.py:345). -/
def surface (H Zb : Grid) : Grid := fun i j => Zb i j + max (H i j) 0

/-! ### Boundary conditions -/

/-- `add_halo` (gc2d.py:359-366): the first and last column, then the first and last row, are repeated. -/
def addHalo (ny nx : ℕ) (x : Grid) : Grid := fun i j => x (min (i - 1) (ny - 1)) (min (j - 1) (nx - 1))

/-- Assignment to a column, `A[:,j] = v`.  Used in the model of gc2d.py:394-404. -/
def setCol (A : Grid) (j : ℕ) (v : ℕ → ℝ) : Grid := fun i k => if k = j then v i else A i k

/-- Assignment to a row, `A[i,:] = v`.  Used in the model of gc2d.py:420-430. -/
def setRow (A : Grid) (i : ℕ) (v : ℕ → ℝ) : Grid := fun k j => if k = i then v j else A k j

/-- The western and eastern boundary conditions (gc2d.py:394-404, 407-417), for the halo column `j` and the two columns
`j1`, `j2` inside it.  `Hbound` is not defined (only `Parameters.Hbound` is). -/
def bcCol (bc : BC) (j j1 j2 : ℕ) (ZbE : Grid) (s : Grid × Grid) : Except String (Grid × Grid) :=
  match bc with
  | .surfElev => .error "NameError: Hbound"
  | .surfSlope =>
    let ZiE := setCol s.2 j fun i => 2 * s.2 i j1 - s.2 i j2
    .ok (setCol s.1 j fun i => max (ZiE i j - ZbE i j) 0, ZiE)
  | .iceFree => .ok (setCol s.1 j fun _ => 0, s.2)
  | _ => .ok s

/-- The southern and northern boundary conditions (gc2d.py:420-430, 433-443), for the halo row `i`. -/
def bcRow (bc : BC) (i i1 i2 : ℕ) (ZbE : Grid) (s : Grid × Grid) : Except String (Grid × Grid) :=
  match bc with
  | .surfElev => .error "NameError: Hbound"
  | .surfSlope =>
    let ZiE := setRow s.2 i fun j => 2 * s.2 i1 j - s.2 i2 j
    .ok (setRow s.1 i fun j => max (ZiE i j - ZbE i j) 0, ZiE)
  | .iceFree => .ok (setRow s.1 i fun _ => 0, s.2)
  | _ => .ok s

/-- `set_bc` (gc2d.py:368-447): thickness, bed and surface with a halo. -/
def setBc (ny nx : ℕ) (H Zb Zi : Grid) (west east south north : BC) : Except String (Grid × Grid × Grid) :=
  let ZbE := addHalo ny nx Zb
  match bcCol west 0 1 2 ZbE (addHalo ny nx H, addHalo ny nx Zi) with
  | .error e => .error e
  | .ok s1 =>
    match bcCol east (nx + 1) nx (nx - 1) ZbE s1 with
    | .error e => .error e
    | .ok s2 =>
      match bcRow south 0 1 2 ZbE s2 with
      | .error e => .error e
      | .ok s3 =>
        match bcRow north (ny + 1) ny (ny - 1) ZbE s3 with
        | .error e => .error e
        | .ok s4 => .ok (s4.1, ZbE, fun i j => ZbE i j + s4.1 i j)

/-! ### Slopes, stress and velocity -/

/-- `difference_grid` (gc2d.py:451-458) on the faces within rows. -/
def diffX (A : Grid) (dx : ℝ) : Grid := fun i j => (A (i + 1) (j + 1) - A (i + 1) j) / dx
/-- `difference_grid` (gc2d.py:451-458) on the faces within columns. -/
def diffY (A : Grid) (dy : ℝ) : Grid := fun i j => (A (i + 1) (j + 1) - A i (j + 1)) / dy

/-- `HX` of gc2d.py:476, 478: mean thickness on a face within a row. -/
def meanX (HE : Grid) : Grid := fun i j => (HE (i + 1) (j + 1) + HE (i + 1) j) / 2
/-- `HY` of gc2d.py:477, 479. -/
def meanY (HE : Grid) : Grid := fun i j => (HE (i + 1) (j + 1) + HE i (j + 1)) / 2

/-- `taubxX_ext` (gc2d.py:470, 476, 481): rows of the halo grid, faces of `diffX`. -/
def stressXE (p : Params) (HE ZiE : Grid) (dx : ℝ) : Grid := fun i j =>
  -p.rhoI * p.g * ((HE i (j + 1) + HE i j) / 2) * ((ZiE i (j + 1) - ZiE i j) / dx)
/-- `taubyY_ext` (gc2d.py:471, 477, 482). -/
def stressYE (p : Params) (HE ZiE : Grid) (dy : ℝ) : Grid := fun i j =>
  -p.rhoI * p.g * ((HE (i + 1) j + HE i j) / 2) * ((ZiE (i + 1) j - ZiE i j) / dy)

/-- The mean of the four values around (`taubxY`, `taubyX`, gc2d.py:487-491). -/
def mean4 (A : Grid) : Grid := fun i j => (A i j + A i (j + 1) + A (i + 1) j + A (i + 1) (j + 1)) / 4

/-- The result of `basal_shear_stress`: components of direction, stress and thickness on both kinds of faces.
Used in the model of gc2d.py:463-503. -/
structure Stress where
  xcmpnt : Grid
  ycmpnt : Grid
  taubX : Grid
  taubY : Grid
  HX : Grid
  HY : Grid

/-- `basal_shear_stress` (gc2d.py:463-503). -/
def basalShearStress (p : Params) (HE ZiE : Grid) (dx dy : ℝ) : Stress :=
  let tx := stressXE p HE ZiE dx
  let ty := stressYE p HE ZiE dy
  let HX := meanX HE
  let HY := meanY HE
  let taubX : Grid := fun i j => if 0 < HX i j then Real.sqrt (tx (i + 1) j ^ 2 + mean4 ty i j ^ 2) else 0
  let taubY : Grid := fun i j => if 0 < HY i j then Real.sqrt (mean4 tx i j ^ 2 + ty i (j + 1) ^ 2) else 0
  { xcmpnt := fun i j => if |taubX i j| < 1e-5 then 0 else tx (i + 1) j / taubX i j
    ycmpnt := fun i j => if |taubY i j| < 1e-5 then 0 else ty i (j + 1) / taubY i j
    taubX := taubX, taubY := taubY, HX := HX, HY := HY }

/-- `iceflow` without `THERMAL_TOGGLE` (gc2d.py:545-551), on one kind of faces. -/
def iceflow (glensA : ℝ) (taub H cmpnt : Grid) : Grid := fun i j =>
  |0.4 * glensA * taub i j * taub i j * taub i j * H i j| * cmpnt i j

/-- `ice_sliding` without `THERMAL_TOGGLE` (gc2d.py:570-573), on one kind of faces. -/
def iceSliding (usChar taubChar : ℝ) (taub cmpnt : Grid) : Grid := fun i j =>
  if |taub i j| < 1e-5 then usChar * Real.exp (1 - taubChar) * cmpnt i j
  else usChar * Real.exp (1 - taubChar / taub i j) * cmpnt i j

/-- The velocities of `update` (gc2d.py:1210-1228) with `sum_ice_motion` (gc2d.py:593-598): the parameters are the
default values of the arguments. -/
def velocity (p : Params) (flow slide : Bool) (taub H cmpnt : Grid) : Grid := fun i j =>
  (if flow then iceflow p.glensA taub H cmpnt i j else 0) +
    (if slide then iceSliding p.usChar p.taubChar taub cmpnt i j else 0)

/-! ### Continuity -/

/-- `CLASS` (gc2d.py:887). -/
def iceClass (minThick : ℝ) (HE : Grid) : Grid := fun i j => if minThick ≤ HE i j then 1 else 0

/-- `UxX` after `numpy.choose( numpy.abs(DCLASSx+1)<1e-5 , (UxX,0.) )` (gc2d.py:889, 892). -/
def stopX (minThick : ℝ) (HE U slope : Grid) : Grid := fun i j =>
  if |(iceClass minThick HE (i + 1) (j + 1) - iceClass minThick HE (i + 1) j) * Real.sign (slope i j) + 1| < 1e-5 then 0
  else U i j
/-- `UyY` after its `choose` (gc2d.py:890, 893). -/
def stopY (minThick : ℝ) (HE U slope : Grid) : Grid := fun i j =>
  if |(iceClass minThick HE (i + 1) (j + 1) - iceClass minThick HE i (j + 1)) * Real.sign (slope i j) + 1| < 1e-5 then 0
  else U i j

/-- `qxX` (gc2d.py:896, 903-904), with the given flux on a western or eastern border of type `CONST_FLUX_BOUND`. -/
def fluxX (nx : ℕ) (bflux : ℝ) (west east : BC) (U HX : Grid) : Grid :=
  let q : Grid := fun i j => U i j * HX i j
  let q := if west = .constFlux then setCol q 0 fun _ => bflux else q
  if east = .constFlux then setCol q nx fun _ => bflux else q
/-- `qyY` (gc2d.py:897, 905-906). -/
def fluxY (ny : ℕ) (bflux : ℝ) (south north : BC) (U HY : Grid) : Grid :=
  let q : Grid := fun i j => U i j * HY i j
  let q := if south = .constFlux then setRow q 0 fun _ => bflux else q
  if north = .constFlux then setRow q ny fun _ => bflux else q

/-- `dHdt` (gc2d.py:909-911). -/
def divergence (dx dy : ℝ) (qx qy : Grid) : Grid := fun i j =>
  -((qx i (j + 1) - qx i j) / dx) - (qy (i + 1) j - qy i j) / dy

/-- The fluxes and `dHdt` that `update` computes from the grids with a halo (gc2d.py:1200-1234), for given parameters
and boundary conditions. -/
structure Motion where
  qx : Grid
  qy : Grid
  dHdt : Grid
/-- Used in the model of gc2d.py:1159-1272. -/
@[inherit_doc Motion]
def motionOf (p : Params) (west east south north : BC) (flow slide : Bool) (ny nx : ℕ) (dx dy : ℝ) (HE ZiE : Grid) :
    Motion :=
  let s := basalShearStress p HE ZiE dx dy
  let Ux := stopX p.minGlacThick HE (velocity p flow slide s.taubX s.HX s.xcmpnt) (diffX ZiE dx)
  let Uy := stopY p.minGlacThick HE (velocity p flow slide s.taubY s.HY s.ycmpnt) (diffY ZiE dy)
  let qx := fluxX nx 0 west east Ux s.HX
  let qy := fluxY ny 0 south north Uy s.HY
  { qx := qx, qy := qy, dHdt := divergence dx dy qx qy }

/-- Ice motion for given boundary conditions and parameters: `set_bc`, then the rest.
Built on the model of gc2d.py:1200-1234. -/
def motion (p : Params) (west east south north : BC) (flow slide : Bool) (ny nx : ℕ) (dx dy : ℝ) (H Zb Zi : Grid) :
    Except String Motion :=
  match setBc ny nx H Zb Zi west east south north with
  | .error e => .error e
  | .ok (HE, _, ZiE) => .ok (motionOf p west east south north flow slide ny nx dx dy HE ZiE)

/-! ### Climate -/

/-- `Bxy` for a given ELA: `gradBz * ( Zi - ELA )`, not more than `maxBz` (gc2d.py:796-797, 807-808, 828-829). -/
def balanceOf (p : Params) (ela : ℝ) (Zi : Grid) : Grid := fun i j =>
  if p.maxBz < p.gradBz * (Zi i j - ela) then p.maxBz else p.gradBz * (Zi i j - ela)

/-- `mass_balance( Zi, t )` (gc2d.py:742-866): the parameters are the current ones.  The options that use names that are
not defined anywhere fail; the unknown option returns `-1`, which the caller cannot unpack. -/
def massBalance (m : Module) (Zi : Grid) (t : ℝ) : Except String (Grid × ℝ) :=
  let p := m.par
  match m.tog.massBalance with
  | .constantELA => .ok (balanceOf p p.initELA Zi, p.initELA)
  | .elaLowering =>
    let ela := p.initELA + p.elaStepSize * max 0 ((t - p.tmin) / p.elaStepInterval)
    .ok (balanceOf p ela Zi, ela)
  | .elaLowering2 =>
    let ela := 4200 + (-10) * max 0 ((⌊(t - 0) / (8 * 25)⌋ : ℤ) : ℝ)
    .ok (balanceOf p ela Zi, ela)
  | .externalFunc => .error "NameError: mass_balance_gc2d"
  | .elaTimeSeries => .error "NameError: trecord"
  | .d18OTimeSeries => .error "NameError: trecord"
  | .balanceFile => .error "NameError: DEM_file"
  | .zeroBalance => .error "NameError: Zb"
  | .badVal => .error "TypeError: cannot unpack"

/-! ### Time step -/

/-- The mean over the 3 by 3 cells around (gc2d.py:984-985), from the grid with a halo. -/
def mean9 (ZiE : Grid) : Grid := fun i j => (∑ a ∈ range 3, ∑ b ∈ range 3, ZiE (i + a) (j + b)) / 9

/-- `dHmax` (gc2d.py:986) on a grid of 3 by 3 cells, where `filter2d( filt, … )` with mode `'same'` has the shape of
`filt`: the mean over 3 by 3 cells, counting cells outside as zero. -/
def dHmax3 (ZiE Zi : Grid) : Grid := fun i j =>
  Real.sqrt ((∑ a ∈ range 3, ∑ b ∈ range 3,
    if 1 ≤ i + a ∧ i + a ≤ 3 ∧ 1 ≤ j + b ∧ j + b ≤ 3 then
      (mean9 ZiE (i + a - 1) (j + b - 1) - Zi (i + a - 1) (j + b - 1)) ^ 2 else 0) / 9)

/-- The cells considered by `get_timestep` on a grid of 3 by 3 cells (gc2d.py:989-992). -/
def limiting (H ZiE Zi dHdt B : Grid) : Finset (ℕ × ℕ) :=
  open Classical in
  (range 3 ×ˢ range 3).filter fun c =>
    |dHdt c.1 c.2 + B c.1 c.2| ≠ 0 ∧ dHmax3 ZiE Zi c.1 c.2 ≠ 0 ∧ 10 < H c.1 c.2

/-- `get_timestep` (gc2d.py:958-1017) with the default values of its last two arguments.  `scipy.signal.convolve` with
mode `'same'` returns an array of the shape of its first argument, here 3 by 3; `logical_and` of it with a grid of
another shape (both numbers at least two) cannot be broadcast.  Simplification: grids with a single row or column, where
arrays are broadcast and a wrong cell or an index error can result, are not modelled. -/
def getTimestep (dtMax dtDefault : ℝ) (ny nx : ℕ) (H ZiE Zi dHdt B : Grid) : Except String ℝ :=
  open Classical in
  if ny < 2 ∨ nx < 2 then .error "not modelled: a single row or column"
  else if ny = 3 ∧ nx = 3 then
    let ind := limiting H ZiE Zi dHdt B
    if h : ind.Nonempty then
      .ok (min dtMax (ind.inf' h (fun c => dHmax3 ZiE Zi c.1 c.2 / |dHdt c.1 c.2 + B c.1 c.2|) / 2))
    else .ok dtDefault
  else .error "ValueError: operands could not be broadcast together"

/-! ### The update -/

/-- What `update_vars` returns: time, thickness, surface, melt rate and the ice budget.
Used in the model of gc2d.py:1061-1146. -/
structure Result where
  t : ℝ
  H : Grid
  Zi : Grid
  meltrate : Grid
  conserveIce : ℝ

/-- `update_vars` (gc2d.py:1061-1146). -/
def updateVars (p : Params) (ny nx : ℕ) (H Zb B qx qy dHdt : Grid) (t dt conserveIce dx : ℝ) : Result :=
  let Bpos : Grid := fun i j => max 0 (B i j)
  let H1 : Grid := fun i j => H i j + Bpos i j * dt
  let H2 : Grid := fun i j => H1 i j + dHdt i j * dt
  let Bneg : Grid := fun i j => max (-(H2 i j) / dt) (min 0 (B i j))
  let dHmelt : Grid := fun i j => Bneg i j * dt
  let H3 : Grid := fun i j => H2 i j + dHmelt i j
  let melt : Grid := fun i j => max (-(dHmelt i j / dt) * (p.rhoI / p.rhoW) / p.secPerYear) 0
  let snowFall : ℝ := ∑ i ∈ range ny, ∑ j ∈ range nx, (-Bneg i j + Bpos i j) * dt
  let qbound : ℝ := ∑ j ∈ range nx, qy 0 j - ∑ j ∈ range nx, qy ny j + ∑ i ∈ range ny, qx i 0 - ∑ i ∈ range ny, qx i nx
  { t := t + dt, H := H3, Zi := fun i j => Zb i j + max (H3 i j) 0, meltrate := melt
    conserveIce := conserveIce + snowFall + dt * qbound / dx }

/-- The optional arguments of `update` (gc2d.py:1160-1162). -/
structure Opts where
  compress : Option Bool := none
  iceflow : Option Bool := none
  iceslide : Option Bool := none
  variableDt : Option Bool := none
  dtDefault : Option ℝ := none

/-- `update` (gc2d.py:1159-1272): the step used and the result.  The functions it calls take their parameters and
boundary conditions from the default values of their arguments, that is from `imported`; `mass_balance` takes the
current ones.  A surface of another shape than the thickness (from `compress_grid`) cannot be added to it. -/
def update (m : Module) (o : Opts) (ny nx : ℕ) (t : ℝ) (H Zb : Grid) (dx dy conserveIce : ℝ) :
    Except String (ℝ × Result) :=
  let d := imported
  let Zi := surface H Zb
  match setBc ny nx H Zb Zi d.tog.west d.tog.east d.tog.south d.tog.north with
  | .error e => .error e
  | .ok (HE, _, ZiE) =>
    let mo := motionOf d.par d.tog.west d.tog.east d.tog.south d.tog.north (o.iceflow.getD m.tog.iceflow)
      (o.iceslide.getD m.tog.iceslide) ny nx dx dy HE ZiE
    match massBalance m Zi t with
    | .error e => .error e
    | .ok (B, _) =>
      if compressShape ny nx H (o.compress.getD m.tog.compress) ≠ (ny, nx) then
        .error "ValueError: operands could not be broadcast together"
      else
        match (if o.variableDt.getD m.tog.variableDt then
            getTimestep d.par.dtMax d.par.dtDefault ny nx H ZiE Zi mo.dHdt B
          else .ok (o.dtDefault.getD m.par.dtDefault)) with
        | .error e => .error e
        | .ok dt => .ok (dt, updateVars m.par ny nx H Zb B mo.qx mo.qy mo.dHdt t dt conserveIce dx)

/-- The loop of `run_model` (gc2d.py:113-117): `while (t < t_max)`, with the number of steps taken.  `none` means that the
fuel ran out. -/
def runLoop (m : Module) (ny nx : ℕ) (Zb : Grid) (dx dy tMax : ℝ) :
    ℕ → ℕ → ℝ × Grid × ℝ → Option (Except String (ℕ × ℝ × Grid × ℝ))
  | 0, _, _ => none
  | fuel + 1, n, (t, H, c) =>
    open Classical in
    if t < tMax then
      match update m {} ny nx t H Zb dx dy c with
      | .error e => some (.error e)
      | .ok (_, r) => runLoop m ny nx Zb dx dy tMax fuel (n + 1) (r.t, r.H, r.conserveIce)
    else some (.ok (n, t, H, c))

/-! ### The component -/

/-- The values that `set_gc2d_parameters` takes from the configuration file (ice_base.py:793-866). -/
structure Config where
  dtMax : ℝ
  minGlacThick : ℝ
  glensA : ℝ
  usChar : ℝ
  taubChar : ℝ
  initELA : ℝ
  elaStepSize : ℝ
  elaStepInterval : ℝ
  gradBz : ℝ
  maxBz : ℝ
  tmin : ℝ
  variableDt : Bool
  iceflow : Bool
  iceslide : Bool
  massBalance : MB
  west : BC
  east : BC
  south : BC
  north : BC

/-- `set_gc2d_parameters` (ice_base.py:793-866): assignments to entries of the two classes. -/
def setParameters (m : Module) (c : Config) : Module where
  par :=
    { m.par with
      dtMax := c.dtMax, dtDefault := c.dtMax, minGlacThick := c.minGlacThick, glensA := c.glensA, usChar := c.usChar
      taubChar := c.taubChar, initELA := c.initELA, elaStepSize := c.elaStepSize, elaStepInterval := c.elaStepInterval
      gradBz := c.gradBz, maxBz := c.maxBz, tmin := c.tmin }
  tog :=
    { m.tog with
      variableDt := c.variableDt, iceflow := c.iceflow, iceslide := c.iceslide, massBalance := c.massBalance
      west := c.west, east := c.east, south := c.south, north := c.north }

/-- The state of the component.  Used in the model of ice_base.py:469-576. -/
structure Comp where
  enabled : Bool
  status : String
  time : ℝ
  dt : ℝ
  h : Grid
  z : Grid
  mr : Grid
  conserveIce : ℝ

/-- The parameters of `update_time` of the component (ice_base.py:752), which replaces the one of `BMI_base`. -/
def updateTimeParams : List String := ["self"]

/-- `update` of the component (ice_base.py:469-576): the state afterwards and the exception raised, if any.  Writing the
output files (ice_base.py:566) is not modelled. -/
def compUpdate (m : Module) (c : Config) (ny nx : ℕ) (zBed : Grid) (dx dy : ℝ) (s : Comp) : Comp × Option String :=
  if s.enabled = false then (s, none)
  else
    let s1 := { s with status := "updating" }
    match update m { iceflow := some c.iceflow, iceslide := some c.iceslide, variableDt := some c.variableDt
                     dtDefault := some c.dtMax } ny nx s.time s.h zBed dx dy s.conserveIce with
    | .error e => (s1, some e)
    | .ok (dt, r) =>
      let s2 := { s1 with h := r.H, z := r.Zi, mr := r.meltrate, conserveIce := r.conserveIce, dt := dt }
      match Nc.bindCall updateTimeParams 2 [] with
      | .error e => (s2, some e)
      | .ok _ => ({ s2 with status := "updated" }, none)

end Ice
