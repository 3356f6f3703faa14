import Verif.D8GeomModel
import Verif.ChannelModel
import Mathlib.Analysis.SpecialFunctions.Pow.Real
import Mathlib.Data.Finset.Lattice.Fold

/-!
# Model of the landscape evolution component (`erode_base.py`, `erode_d8_global.py`)

One global time step of the Erode model: slopes towards the D8 parents, water discharge, sediment
discharge, rate of change of elevation, the adaptive time step, the new elevations, and the
bookkeeping around them (base level, stopping rule, record of the largest change, volume totals).

Simplifications: arithmetic is over the reals; NaN does not occur (so `nanmin` is `min`); `da` is a
scalar because `initialize` builds its grid information with `make_info`, whose pixel geometry is
fixed-size (rti_files.py:405-412, pixels.py:185-186); `FILL_PITS` is False (erode_base.py:164);
`U`, `BLR`, `R`, `K`, `m`, `n`, `p` are the scalars of the cfg file; messages and output files are
not modelled here.
-/

set_option autoImplicit false

noncomputable section

open D8 (Cell)

namespace Erode

variable {ny nx : ℕ}

/-- The parameters (erode_d8_global.cfg; `set_constants`, erode_base.py:126-176). -/
structure Par where
  da : ℝ
  /-- uplift rate in mm per year -/
  U : ℝ
  /-- base level lowering rate in mm per year -/
  BLR : ℝ
  R : ℝ
  K : ℝ
  m : ℝ
  n : ℝ
  p : ℝ
  cfl : ℝ
  stopCode : ℤ
  nSteps : ℕ
  stopTime : ℝ

/-- `secs_per_year` (erode_base.py:140). -/
def secsPerYear : ℝ := 31536000
/-- `mm_per_m` (erode_base.py:141). -/
def mmPerM : ℝ := 1000
/-- `dz_tolerance` (erode_base.py:142). -/
def dzTolerance : ℝ := 1 / 1000000
/-- `dt_limit` (erode_base.py:152). -/
def dtLimit : ℝ := 10 ^ 20
/-- `U_mpyr` (erode_base.py:452). -/
def Par.Umpyr (a : Par) : ℝ := a.U / mmPerM
/-- `BLR_mpyr` (erode_base.py:453). -/
def Par.BLRmpyr (a : Par) : ℝ := a.BLR / mmPerM

/-- `base_IDs` for the boundary condition FOUR_SIDES (erode_base.py:748-753), flat IDs.
`np.arange(ny - 2)` is empty for `ny < 2`. -/
def baseIDs (ny nx : ℕ) : List ℕ :=
  let tIDs := List.range nx
  let bIDs := tIDs.map (fun i => i + nx * (ny - 1))
  let lIDs := (List.range (ny - 2)).map (fun i => nx * (i + 1))
  let rIDs := lIDs.map (fun i => i + (nx - 1))
  tIDs ++ bIDs ++ lIDs ++ rIDs

/-- The parent cell, `DEM.flat[parent_ID_grid]` and `DEM[parent_IDs]` (erode_d8_global.py:583-584,
1052-1053; d8_global.py:679). -/
def par (hy : 0 < ny) (hx : 0 < nx) (lr tb : Bool) (codes : Cell ny nx → ℤ) (c : Cell ny nx) :
    Cell ny nx :=
  Chan.cellOf hy hx (D8.parentID lr tb codes c)

/-- `update_slope_grid` (erode_d8_global.py:567-630): drop to the parent over the flow length, zero
where the flow code is zero, `sys.exit` when a slope is negative. -/
def slopeGrid (hy : 0 < ny) (hx : 0 < nx) (lr tb : Bool) (z ds : Cell ny nx → ℝ)
    (codes : Cell ny nx → ℤ) : Except String (Cell ny nx → ℝ) :=
  let S : Cell ny nx → ℝ := fun c =>
    if codes c = 0 then 0 else (z c - z (par hy hx lr tb codes c)) / ds c
  open Classical in if ∃ c, S c < 0 then .error "SystemExit" else .ok S

/-- `update_Q_grid` (erode_d8_global.py:632-678). -/
def qGrid (a : Par) (A : Cell ny nx → ℝ) (c : Cell ny nx) : ℝ :=
  open Classical in if a.p ≠ 1 then a.R * (A c) ^ a.p else a.R * A c

/-- `update_Qs_grid` (erode_d8_global.py:680-729). -/
def qsGrid (a : Par) (Q S : Cell ny nx → ℝ) (c : Cell ny nx) : ℝ :=
  let fac1 := secsPerYear ^ (1 - a.m)
  let fac2 := a.K * (Q c) ^ a.m
  let fac3 := (S c) ^ a.n
  fac1 * fac2 * fac3

/-- Assignment of one value to the cells whose flat ID is in the list (`dz_dt.flat[base_IDs] = v`,
erode_d8_global.py:800). -/
def setBase (ids : List ℕ) (v : ℝ) (f : Cell ny nx → ℝ) (c : Cell ny nx) : ℝ :=
  if c.1.val * nx + c.2.val ∈ ids then v else f c

/-- `update_dz_dt_grid` (erode_d8_global.py:732-800): minus the flux out, plus uplift, plus the flux
out of the cells flowing here, direction by direction; base level cells get minus the lowering
rate. -/
def dzDt (a : Par) (net : Chan.Net ny nx) (ids : List ℕ) (Qs : Cell ny nx → ℝ) : Cell ny nx → ℝ :=
  let fluxOut : Cell ny nx → ℝ := fun c => Qs c / a.da
  let f0 : Cell ny nx → ℝ := fun c => -fluxOut c + a.Umpyr
  let f8 := (List.finRange 8).foldl
    (fun v k => Chan.fancyAdd v ((net.w k).map net.parent) ((net.w k).map fluxOut)) f0
  setBase ids (-a.BLRmpyr) f8

/-- `update_dt_grid_method1` (erode_d8_global.py:1052-1092) at one cell: zero; where `Qs > 0` a
fraction `CFL_factor` of the time that equalises the elevations; `dt_limit` where the drop is
negative and where the parent ID is 0. -/
def dtCell (hy : 0 < ny) (hx : 0 < nx) (lr tb : Bool) (a : Par) (codes : Cell ny nx → ℤ)
    (z Qs : Cell ny nx → ℝ) (c : Cell ny nx) : ℝ :=
  let delZ := z c - z (par hy hx lr tb codes c)
  let t : ℝ := 0
  let t := open Classical in if Qs c > 0 then a.cfl * (a.da / 2 * delZ / Qs c) else t
  let t := open Classical in if delZ < 0 then dtLimit else t
  if D8.parentID lr tb codes c = 0 then dtLimit else t

/-- The smallest value on a grid (`np.nanmin`, erode_d8_global.py:1097). -/
def gridMin (hy : 0 < ny) (hx : 0 < nx) (f : Cell ny nx → ℝ) : ℝ :=
  Finset.univ.inf' ⟨(⟨0, hy⟩, ⟨0, hx⟩), Finset.mem_univ _⟩ f

/-- The largest value on a grid (`np.nanmax`, erode_d8_global.py:1181). -/
def gridMax (hy : 0 < ny) (hx : 0 < nx) (f : Cell ny nx → ℝ) : ℝ :=
  Finset.univ.sup' ⟨(⟨0, hy⟩, ⟨0, hx⟩), Finset.mem_univ _⟩ f

/-- The time step: the minimum of the grid; `sys.exit` if it is not positive
(erode_d8_global.py:1097-1125, 1174). -/
def timeStep (hy : 0 < ny) (hx : 0 < nx) (lr tb : Bool) (a : Par) (codes : Cell ny nx → ℤ)
    (z Qs : Cell ny nx → ℝ) : Except String ℝ :=
  let dtMin := gridMin hy hx (dtCell hy hx lr tb a codes z Qs)
  open Classical in if dtMin ≤ 0 then .error "SystemExit" else .ok dtMin

/-- State of the component.  Used in the model of erode_base.py:176-296. -/
structure St (ny nx : ℕ) where
  z : Cell ny nx → ℝ
  dt : ℝ
  time : ℝ
  timeIndex : ℕ
  dzMax : ℝ
  /-- `dz_max_vec`: the record of the largest change in each step -/
  dzMaxVec : List ℝ
  done : Bool
  volR : ℝ
  volU : ℝ

/-- State after `initialize` (erode_base.py:176-296, 780-804; BMI_base.py:950-1027): the time step is
0.1 years, the record is a vector of `n_steps` zeros. -/
def initSt (a : Par) (z0 : Cell ny nx → ℝ) : St ny nx where
  z := z0
  dt := 1 / 10
  time := 0
  timeIndex := 0
  dzMax := -9999
  dzMaxVec := List.replicate a.nSteps 0
  done := false
  volR := 0
  volU := 0

/-- Python's `v[i] = x`: a negative index counts from the end; `none` is IndexError.
Used in the model of erode_d8_global.py:1147-1202. -/
def pySet (v : List ℝ) (i : ℤ) (x : ℝ) : Option (List ℝ) :=
  if 0 ≤ i ∧ i < v.length then some (v.set i.toNat x)
  else if -v.length ≤ i ∧ i < 0 then some (v.set (i + v.length).toNat x)
  else none

/-- `update_R_integral` and `update_U_integral` (erode_base.py:853-887) for scalar rates: `volume` is
rate times cell area times the current `dt`, times the number of cells. -/
def integrals (a : Par) (s : St ny nx) : St ny nx :=
  { s with
    volR := s.volR + a.R * a.da * s.dt * (ny * nx : ℕ)
    volU := s.volU + a.U * a.da * s.dt * (ny * nx : ℕ) }

/-- `check_finished` (erode_base.py:1992-2022); an unknown stop code leaves `TIMES_UP` undefined. -/
def checkFinished (a : Par) (s : St ny nx) : Except String (St ny nx) :=
  open Classical in
  if a.stopCode = 0 then .ok { s with done := s.done || decide (s.timeIndex ≥ a.nSteps) }
  else if a.stopCode = 1 then .ok { s with done := s.done || decide (s.time ≥ a.stopTime) }
  else if a.stopCode = 2 then .ok { s with done := s.done || decide (s.dzMax < dzTolerance) }
  else .error "UnboundLocalError"

/-- `update_time` (BMI_base.py:1029-1088), called with the `dt` argument of `update`; it also calls
`check_finished`. -/
def updateTime (a : Par) (dtArg : ℝ) (s : St ny nx) : Except String (St ny nx) :=
  open Classical in
  checkFinished a { s with
    timeIndex := s.timeIndex + 1
    time := if dtArg = -1 then s.time + s.dt else s.time + dtArg }

/-- `update_DEM` (erode_d8_global.py:1147-1202). -/
def updateDEM (hy : 0 < ny) (hx : 0 < nx) (a : Par) (dtMin : ℝ) (rate : Cell ny nx → ℝ)
    (s : St ny nx) : Except String (St ny nx) :=
  let dz : Cell ny nx → ℝ := fun c => rate c * dtMin
  let mx := gridMax hy hx dz
  let z' : Cell ny nx → ℝ := fun c => s.z c + dz c
  if a.stopCode = 0 then
    match pySet s.dzMaxVec ((s.timeIndex : ℤ) - 1) mx with
    | none => .error "IndexError"
    | some v => .ok { s with z := z', dt := dtMin, dzMax := mx, dzMaxVec := v }
  else .ok { s with z := z', dt := dtMin, dzMax := mx }

/-- `check_stability` (erode_base.py:1965-1988) and the status it sets (erode_d8_global.py:388-393). -/
def checkStability (s : St ny nx) : St ny nx :=
  open Classical in if s.dzMax > 1000 then { s with done := true } else s

/-- What the D8 component hands over in one step.
Used in the model of erode_d8_global.py:319-421. -/
structure D8Vars (ny nx : ℕ) where
  codes : Cell ny nx → ℤ
  net : Chan.Net ny nx
  ds : Cell ny nx → ℝ
  A : Cell ny nx → ℝ

/-- The part of `update` that follows the D8 update (erode_d8_global.py:319-421), for the boundary
condition FOUR_SIDES, given the D8 variables of the current elevations. -/
def evolve (hy : 0 < ny) (hx : 0 < nx) (lr tb : Bool) (a : Par) (g : D8Vars ny nx) (dtArg : ℝ)
    (s : St ny nx) : Except String (St ny nx) :=
  match slopeGrid hy hx lr tb s.z g.ds g.codes with
  | .error e => .error e
  | .ok S =>
    let Q := qGrid a g.A
    let Qs := qsGrid a Q S
    let rate := dzDt a g.net (baseIDs ny nx) Qs
    match timeStep hy hx lr tb a g.codes s.z Qs with
    | .error e => .error e
    | .ok dtMin =>
      match updateDEM hy hx a dtMin rate s with
      | .error e => .error e
      | .ok s1 =>
        match updateTime a dtArg (checkStability s1) with
        | .error e => .error e
        | .ok s2 => checkFinished a s2

/-- One step as `update` means it (erode_d8_global.py:298-421): the volume totals, then the rest, with
the D8 variables of the current elevations. -/
def step (hy : 0 < ny) (hx : 0 < nx) (lr tb : Bool) (a : Par)
    (d8 : (Cell ny nx → ℝ) → D8Vars ny nx) (dtArg : ℝ) (s : St ny nx) :
    Except String (St ny nx) :=
  evolve hy hx lr tb a (d8 (integrals a s).z) dtArg (integrals a s)

/-- Python's rule for a call with keyword arguments: every keyword must be a parameter that is not
already filled by position.  Used in the model of erode_d8_global.py:262-421. -/
def acceptsCall (params : List String) (nPositional : ℕ) (keywords : List String) : Bool :=
  decide (nPositional ≤ params.length) && keywords.all (fun k => (params.drop nPositional).elem k)

/-- The parameters of `d8_base.d8_component.update` after `self` (d8_base.py:358). -/
def d8UpdateParams : List String := ["time", "DEM", "REPORT"]

/-- The call in `update_d8_vars` (erode_base.py:964-965): one positional argument and three
keywords. -/
def d8Call : ℕ × List String := (1, ["DEM", "SILENT", "REPORT"])

/-- `update` (erode_d8_global.py:262-421): disabled components return at once; otherwise the volume
totals are updated, the edge values are left alone (FOUR_SIDES), and the D8 component is called.
`d8` is what that call would deliver. -/
def update (hy : 0 < ny) (hx : 0 < nx) (lr tb : Bool) (disabled : Bool) (a : Par)
    (d8 : (Cell ny nx → ℝ) → D8Vars ny nx) (dtArg : ℝ) (s : St ny nx) :
    Except String (St ny nx) :=
  if disabled then .ok s
  else if acceptsCall d8UpdateParams d8Call.1 d8Call.2 then step hy hx lr tb a d8 dtArg s
  else .error "TypeError"

end Erode
