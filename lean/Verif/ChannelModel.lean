import Verif.D8Model
import Mathlib.Analysis.SpecialFunctions.Pow.Real
import Mathlib.Analysis.SpecialFunctions.Trigonometric.Basic
import Mathlib.Analysis.SpecialFunctions.Log.Basic

/-!
# The channel flow components (topoflow/components/channels_base.py, channels_kinematic_wave.py,
channels_diffusive_wave.py, channels_dynamic_wave.py)

One `update()` is modelled function by function, in the order of channels_base.py:803-960.
Values are real numbers (the code uses float64: no rounding, no NaN, no infinities; the checks for
special values are modelled separately in `FloatGridModel`).  Grids are functions on cells; input
rates that are scalars in the code are constant grids here, except ET, where the code makes a
difference.  Shear stress and speed, friction factor and Froude number are in `ChannelDiagModel` (they do not feed
back into volumes or discharges of the kinematic and diffusive methods).  Not modelled: output files,
messages.
-/

set_option autoImplicit false

noncomputable section

namespace Chan

open D8 (Cell)

variable {ny nx : ℕ}

/-- A drainage network as the D8 component delivers it: `w k` (cells with flow code k,
`d8.w1 ... d8.w8`), parent cells (`d8.parent_IDs`; `d8.p1 ... d8.p8` are the parents of the cells in
`w k`, d8_global.py:766-839) and `noflow_IDs`. -/
structure Net (ny nx : ℕ) where
  w : Fin 8 → List (Cell ny nx)
  parent : Cell ny nx → Cell ny nx
  noflow : List (Cell ny nx)

/-- `divmod(ID, nx)` (d8_global.py:680, 771) as a cell of the grid. -/
def cellOf (hy : 0 < ny) (hx : 0 < nx) (i : ℤ) : Cell ny nx :=
  (⟨(i / nx % ny).toNat, by
      have h1 := Int.emod_nonneg (i / nx) (by omega : (ny : ℤ) ≠ 0)
      have h2 := Int.emod_lt_of_pos (i / nx) (by omega : (0 : ℤ) < ny)
      omega⟩,
   ⟨(i % nx).toNat, by
      have h1 := Int.emod_nonneg i (by omega : (nx : ℤ) ≠ 0)
      have h2 := Int.emod_lt_of_pos i (by omega : (0 : ℤ) < nx)
      omega⟩)

/-- The network of a grid of flow codes (`initialize_d8_vars`, channels_base.py:1074-1133);
`none` when there is no cell without flow (see `D8.noflowIDs`). -/
def d8Net (hy : 0 < ny) (hx : 0 < nx) (lr tb : Bool) (codes : Cell ny nx → ℤ) :
    Option (Net ny nx) :=
  (D8.noflowIDs codes).map (fun l =>
    { w := D8.flowFromIDs codes
      parent := fun c => cellOf hy hx (D8.parentID lr tb codes c)
      noflow := l })

/-- The routing method, from the cfg file extension (channels_base.py:1003-1005). -/
inductive Method
  | kinematic
  | diffusive
  | dynamic
  deriving DecidableEq

/-- Settings and fixed grids.  `angle` is in radians, `ds` includes the sinuosity
(channels_base.py:1187, 1245-1253); `widthRatio` is 5 (1372). -/
structure Params (ny nx : ℕ) where
  method : Method
  flood : Bool
  attenuate : Bool
  manning : Bool
  lawOfWall : Bool
  checkStability : Bool
  nDays : ℝ
  dt : ℝ
  da : Cell ny nx → ℝ
  ds : Cell ny nx → ℝ
  width : Cell ny nx → ℝ
  angle : Cell ny nx → ℝ
  dBankfull : Cell ny nx → ℝ
  sBed : Cell ny nx → ℝ
  nval : Cell ny nx → ℝ
  z0val : Cell ny nx → ℝ
  floodN : ℝ
  widthRatio : ℝ
  outlet : Cell ny nx

/-- The state.  `volChan` is used in flood mode only: otherwise `vol_chan` and `vol` are two names
for the same array (channels_base.py:1374-1376). -/
structure St (ny nx : ℕ) where
  vol : Cell ny nx → ℝ
  volChan : Cell ny nx → ℝ
  volFlood : Cell ny nx → ℝ
  volStored : Cell ny nx → ℝ
  d : Cell ny nx → ℝ
  dFlood : Cell ny nx → ℝ
  u : Cell ny nx → ℝ
  Q : Cell ny nx → ℝ
  R : Cell ny nx → ℝ
  aWet : Cell ny nx → ℝ
  rh : Cell ny nx → ℝ
  sFree : Cell ny nx → ℝ
  volEdge : ℝ
  volR : ℝ
  volQ : ℝ
  Qout : ℝ
  uOut : ℝ
  dOut : ℝ
  Qpeak : ℝ
  Tpeak : ℝ
  upeak : ℝ
  Tupeak : ℝ
  dpeak : ℝ
  Tdpeak : ℝ
  timeMin : ℝ

/-- The rates delivered by the other components for one step.  ET may be a scalar or a grid.
Used in the model of channels_base.py:1628-1632. -/
structure Inp (ny nx : ℕ) where
  P : Cell ny nx → ℝ
  SM : Cell ny nx → ℝ
  GW : Cell ny nx → ℝ
  MR : Cell ny nx → ℝ
  IN : Cell ny nx → ℝ
  ET : ℝ ⊕ (Cell ny nx → ℝ)

/-- The ET used by `update_R`, channels_base.py:1628-1632: a grid is set to zero where it exceeds
the water present (in place); a scalar is replaced by zero. -/
def actualET (p : Params ny nx) (inp : Inp ny nx) (s : St ny nx) (c : Cell ny nx) : ℝ :=
  match inp.ET with
  | .inl _ => 0
  | .inr et => if s.vol c < et c * p.da c * p.dt then 0 else et c

/-- `update_R`, channels_base.py:1548-1655. -/
def excessR (p : Params ny nx) (inp : Inp ny nx) (s : St ny nx) (c : Cell ny nx) : ℝ :=
  (inp.P c + inp.SM c + inp.GW c + inp.MR c) - (actualET p inp s c + inp.IN c)

/-- `update_R_integral`, channels_base.py:1657-1671 (a scalar is multiplied by the number of
pixels, which is the same sum). -/
def rIntegral (p : Params ny nx) (R : Cell ny nx → ℝ) : ℝ := ∑ c, R c * p.da c * p.dt

/-- `update_channel_discharge`, channels_base.py:1674-1699. -/
def chanQ (s : St ny nx) (c : Cell ny nx) : ℝ := s.u c * s.aWet c

/-- The slope used for velocities, channels_base.py:1718-1721, 3978-3981. -/
def slopeOf (p : Params ny nx) (s : St ny nx) : Cell ny nx → ℝ :=
  if p.method = .kinematic then p.sBed else s.sFree

/-- `update_flood_discharge`, channels_base.py:1701-1750. -/
def floodQ (p : Params ny nx) (s : St ny nx) (c : Cell ny nx) : ℝ :=
  let uf := (s.dFlood c) ^ (2 / 3 : ℝ) * Real.sqrt |slopeOf p s c| / p.floodN
  uf * (p.widthRatio * p.width c * s.dFlood c)

/-- `update_discharge`, channels_base.py:1791-1862 (without flood option `Q` is `Qc`). -/
def totalQ (p : Params ny nx) (s : St ny nx) (c : Cell ny nx) : ℝ :=
  if p.flood then chanQ s c + floodQ p s c else chanQ s c

/-- numpy's `v[ps] += xs` for a list of index positions: every right hand side uses the old value,
the last assignment to a cell wins.  Used in the model of channels_base.py:2075-2137. -/
def fancyAdd (v : Cell ny nx → ℝ) (ps : List (Cell ny nx)) (xs : List ℝ) : Cell ny nx → ℝ :=
  (ps.zip xs).foldl (fun acc px => Function.update acc px.1 (v px.1 + px.2)) v

/-- The first part of `update_flow_volume`, channels_base.py:2075-2084: what is added to the volume,
and the new attenuation storage.  `R` is the excess rate. -/
def gain (p : Params ny nx) (s : St ny nx) (R : Cell ny nx → ℝ) (c : Cell ny nx) : ℝ × ℝ :=
  if p.attenuate then
    let st := s.volStored c + R c * p.da c * p.dt
    let tDrain := 3600 * 24 * p.nDays
    let qSides := st / tDrain
    let vSides := min (qSides * p.dt) st
    (vSides, max (st - vSides) 0)
  else (R c * p.da c * p.dt, s.volStored c)

/-- `update_flow_volume` before the final `np.maximum`, channels_base.py:2075-2137. -/
def rawVol (p : Params ny nx) (net : Net ny nx) (s : St ny nx) (R Q : Cell ny nx → ℝ) :
    Cell ny nx → ℝ :=
  let v0 : Cell ny nx → ℝ := fun c => s.vol c + (gain p s R c).1
  let v8 := (List.finRange 8).foldl
    (fun v k => fancyAdd v ((net.w k).map net.parent) ((net.w k).map (fun e => p.dt * Q e))) v0
  fun c => v8 c - Q c * p.dt

/-- `update_flow_volume`, channels_base.py:1951-2146. -/
def newVol (p : Params ny nx) (net : Net ny nx) (s : St ny nx) (R Q : Cell ny nx → ℝ)
    (c : Cell ny nx) : ℝ := max (rawVol p net s R Q c) 0

/-- Cross-section area of the water in a trapezoid (channels_base.py:1331-1332, 2670-2671). -/
def wetArea (p : Params ny nx) (d : Cell ny nx → ℝ) (c : Cell ny nx) : ℝ :=
  d c * (p.width c + d c * Real.tan (p.angle c))

/-- `vol_bankfull`, channels_base.py:1389-1391. -/
def volBankfull (p : Params ny nx) (c : Cell ny nx) : ℝ := wetArea p p.dBankfull c * p.ds c

/-- The depth computed from a volume in one cell, `update_channel_depth`,
channels_base.py:2287-2322 (scalar and grid angles use the same formulas). -/
def trapDepth (vol width angle ds : ℝ) : ℝ :=
  if angle = 0 then vol / (width * ds)
  else
    let denom := 2 * Real.tan angle
    let arg := 2 * denom * vol / ds + width ^ 2
    (Real.sqrt arg - width) / denom

/-- `update_channel_depth`, channels_base.py:2250-2391. -/
def newDepth (p : Params ny nx) (volChan : Cell ny nx → ℝ) (c : Cell ny nx) : ℝ :=
  max (trapDepth (volChan c) (p.width c) (p.angle c) (p.ds c)) 0

/-- `update_flood_depth`, channels_base.py:2393-2447. -/
def newFloodDepth (p : Params ny nx) (volFlood : Cell ny nx → ℝ) (c : Cell ny nx) : ℝ :=
  max (volFlood c / (p.widthRatio * p.width c * p.ds c)) 0

/-- `update_trapezoid_Rh`, channels_base.py:2643-2712: the hydraulic radius. -/
def newRh (p : Params ny nx) (net : Net ny nx) (d : Cell ny nx → ℝ) (c : Cell ny nx) : ℝ :=
  if c ∈ net.noflow then 0
  else wetArea p d c / (p.width c + 2 * d c / Real.cos (p.angle c))

/-- `update_free_surface_slope`, channels_base.py:2583-2616. -/
def newSFree (p : Params ny nx) (net : Net ny nx) (d dFlood : Cell ny nx → ℝ) (c : Cell ny nx) : ℝ :=
  let total : Cell ny nx → ℝ := fun e => if p.flood then d e + dFlood e else d e
  p.sBed c + (total c - total (net.parent c)) / p.ds c

/-- `manning_formula`, channels_base.py:3960-4003. -/
def manningU (rh S n : ℝ) : ℝ := rh ^ (2 / 3 : ℝ) * Real.sqrt |S| / n

/-- `law_of_the_wall`, channels_base.py:4005-4062, with `aval` and `law_const`
passed as arguments. -/
def lawU (aval lawConst rh S z0 d : ℝ) : ℝ :=
  lawConst * Real.sqrt (rh * |S|) * Real.log (max (aval / z0 * d) (11 / 10))

/-- `aval` and `law_const` (channels_base.py:518-533, `set_constants`). -/
def aval : ℝ := 0.476

/-- See `aval`.  Used in the model of channels_base.py:4005-4062. -/
def lawConst : ℝ := Real.sqrt 9.81 / 0.408

/-- `update_velocity` (channels_kinematic_wave.py:84-129, channels_diffusive_wave.py:86-148,
channels_dynamic_wave.py:86-212) followed by `update_velocity_on_edges` (channels_base.py:2852-2865).
The dynamic wave method uses the name `dinv`, which is nowhere defined
(channels_dynamic_wave.py:164). -/
def newU (p : Params ny nx) (net : Net ny nx) (s : St ny nx) :
    Except String (Cell ny nx → ℝ) :=
  match p.method with
  | .dynamic => .error "NameError: dinv"
  | _ =>
    let u1 : Cell ny nx → ℝ :=
      if p.manning then fun c => manningU (s.rh c) (slopeOf p s c) (p.nval c) else s.u
    let u2 : Cell ny nx → ℝ :=
      if p.lawOfWall then fun c => lawU aval lawConst (s.rh c) (slopeOf p s c) (p.z0val c) (s.d c)
      else u1
    .ok (fun c => if c ∈ net.noflow then 0 else u2 c)

/-- One of the three blocks of `update_peak_values`, channels_base.py:2908-2926. -/
def peakUpd (x peak tpeak t : ℝ) : ℝ × ℝ := if x > peak then (x, t) else (peak, tpeak)

/-- Everything from `update_R` to `update_free_surface_slope` in `update()`,
channels_base.py:856-898. -/
def routed (p : Params ny nx) (net : Net ny nx) (inp : Inp ny nx) (s : St ny nx) : St ny nx :=
  let R := excessR p inp s
  let Q := totalQ p s
  let vol := newVol p net s R Q
  let volChan : Cell ny nx → ℝ := if p.flood then fun c => min (vol c) (volBankfull p c) else vol
  let volFlood : Cell ny nx → ℝ :=
    if p.flood then fun c => max (vol c - volBankfull p c) 0 else s.volFlood
  let d := newDepth p volChan
  let dFlood : Cell ny nx → ℝ := if p.flood then newFloodDepth p volFlood else s.dFlood
  let geo := decide (p.method ≠ .dynamic)
  { s with
    volR := s.volR + rIntegral p R
    Q := Q
    R := R
    vol := vol
    volStored := fun c => (gain p s R c).2
    volChan := volChan
    volFlood := volFlood
    d := d
    dFlood := dFlood
    aWet := if geo then wetArea p d else s.aWet
    rh := if geo then newRh p net d else s.rh
    sFree := if p.method = .kinematic then s.sFree else newSFree p net d dFlood }

/-- `update_outlet_values`, `update_peak_values`, `update_Q_out_integral`,
channels_base.py:2884-2936. -/
def outletVals (p : Params ny nx) (s : St ny nx) : St ny nx :=
  let q := s.Q p.outlet
  let u := s.u p.outlet
  let d := s.d p.outlet
  let pq := peakUpd q s.Qpeak s.Tpeak s.timeMin
  let pu := peakUpd u s.upeak s.Tupeak s.timeMin
  let pd := peakUpd d s.dpeak s.Tdpeak s.timeMin
  { s with Qout := q, uOut := u, dOut := d, Qpeak := pq.1, Tpeak := pq.2, upeak := pu.1,
           Tupeak := pu.2, dpeak := pd.1, Tdpeak := pd.2, volQ := s.volQ + q * p.dt }

/-- `update_edge_values`, channels_base.py:2938-2984.  Without flood option `vol_chan` is the same
array as `vol` and is zeroed with it; with flood option it is not. -/
def edgeVals (p : Params ny nx) (net : Net ny nx) (s : St ny nx) : St ny nx :=
  let z : (Cell ny nx → ℝ) → Cell ny nx → ℝ := fun f c => if c ∈ net.noflow then 0 else f c
  { s with
    volEdge := s.volEdge + (net.noflow.map s.vol).sum
    vol := z s.vol
    volChan := if p.flood then s.volChan else z s.vol
    d := z s.d
    volFlood := if p.flood then z s.volFlood else s.volFlood
    dFlood := if p.flood then z s.dFlood else s.dFlood }

open Classical in
/-- `check_flow_depth` and `check_flow_velocity`, channels_base.py:3193-3257, 3352-3424, on real
numbers: only negative values can be found. -/
def stable (s : St ny nx) : Bool := decide (∀ c, 0 ≤ s.d c ∧ 0 ≤ s.u c)

/-- `update()`, channels_base.py:803-960; the clock is advanced by `dt` seconds (update_time). -/
def step (p : Params ny nx) (net : Net ny nx) (inp : Inp ny nx) (s : St ny nx) :
    Except String (St ny nx) :=
  let s1 := routed p net inp s
  match newU p net s1 with
  | .error e => .error e
  | .ok u =>
    let s2 := outletVals p { s1 with u := u }
    let s3 := edgeVals p net s2
    if p.checkStability && !stable s3 then .error "RuntimeError"
    else .ok { s3 with timeMin := s3.timeMin + p.dt / 60 }

/-- `initialize_computed_vars`, channels_base.py:1275-1404: the state before the first update, for
initial depths `d0`. -/
def initSt (p : Params ny nx) (d0 : Cell ny nx → ℝ) : St ny nx where
  vol := fun c => wetArea p d0 c * p.ds c
  volChan := fun c => wetArea p d0 c * p.ds c
  volFlood := fun _ => 0
  volStored := fun _ => 0
  d := d0
  dFlood := fun _ => 0
  u := fun _ => 0
  Q := fun _ => 0
  R := fun _ => 0
  aWet := wetArea p d0
  rh := fun _ => 0
  sFree := p.sBed
  volEdge := 0
  volR := 0
  volQ := 0
  Qout := 0
  uOut := 0
  dOut := 0
  Qpeak := 0
  Tpeak := 0
  upeak := 0
  Tupeak := 0
  dpeak := 0
  Tdpeak := 0
  timeMin := 0

end Chan
