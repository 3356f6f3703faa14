import Verif.D8LocalModel
import Mathlib.Data.Sign.Basic
import Mathlib.Algebra.Order.Field.Basic
import Mathlib.Algebra.Order.Monoid.WithTop
import Mathlib.Algebra.BigOperators.Group.List.Basic

/-!
# Model of the event-driven erosion component (`topoflow/components/erode_d8_local.py`)

Grids are functions of the flat cell ID.  Elevations, rates and times are elements of a linear
ordered field (finite floats without rounding); a time step or an event time may be infinite
(`⊤`, from a division by a zero rate).  `heapq` of the Python library is trusted: `heappop` removes
a smallest pair, pairs being compared by time first and ID second.  Flow routing and the transport
law (`update_fluxes4`, erode_d8_local.py:3513-3547) are a parameter `route`: any function giving
the flow codes, the parent IDs and the sediment discharges, or failing.
-/

set_option autoImplicit false

namespace ErodeLocal
open D8Local (getNeighbors)

/-- `dz_target`: a number, an infinity, or `nan` (erode_d8_local.py:1428, 5212-5215). -/
inductive Target (K : Type*)
  | fin (x : K)
  | inf (neg : Bool)
  | nan

/-- The settings of a run.  `cap` is the length of the arrays `zone_IDs` and `all_now_IDs`
(`nmax = 100`, erode_d8_local.py:1571-1574); `pitDz` is `max_dz_for_pits` (0.01, 1225) and
`dtLimit` is `dt_limit` (1e20, 1224); `base` is `base_IDs` (erode_base.py:712-764).  `da` is the
cell area (one number; a grid of areas is not modelled). -/
structure Par (K : Type*) where
  ny : ℕ
  nx : ℕ
  cap : ℕ
  da : K
  cfl : K
  uplift : K
  blr : K
  pitDz : K
  dtLimit : K
  base : List ℤ

/-- What `route` computes: flow codes, parent IDs, sediment discharges.
Used in the model of erode_d8_local.py:1957-2070. -/
structure Routed (K : Type*) where
  code : ℤ → ℤ
  parent : ℤ → ℤ
  qs : ℤ → K

/-- The state.  `zone` and `now` are the entries of `zone_IDs` and `all_now_IDs` other than the
filler −1.  Used in the model of erode_d8_local.py:2518-2519. -/
structure St (K : Type*) where
  dem : ℤ → K
  rate : ℤ → K
  cap : ℤ → K
  target : ℤ → Target K
  qs : ℤ → K
  code : ℤ → ℤ
  parent : ℤ → ℤ
  dt : ℤ → WithTop K
  tLast : ℤ → K
  tNext : ℤ → WithTop K
  heap : List (WithTop K × ℤ)
  clock : K
  time : K
  timeIndex : ℕ
  active : ℤ
  last : ℤ
  activeCount : ℕ
  zone : List ℤ
  now : List ℤ
  count : ℤ → ℕ
  dzMax : K
  done : Bool

section
variable {K : Type*} [Field K] [LinearOrder K]

/-- `not_edge_grid` (erode_d8_local.py:497-512). -/
def notEdge (ny nx : ℕ) (i : ℤ) : Bool :=
  decide (0 ≤ i ∧ i < (ny * nx : ℕ) ∧ i / nx ≠ 0 ∧ i / nx ≠ (ny : ℤ) - 1 ∧
    i % nx ≠ 0 ∧ i % nx ≠ (nx : ℤ) - 1)

/-! ## The queue of events -/

/-- Comparison of two pairs by Python: first the times, then the IDs.
Used in the model of erode_d8_local.py:2269-2291. -/
def before (p q : WithTop K × ℤ) : Bool := decide (p.1 < q.1 ∨ (p.1 = q.1 ∧ p.2 ≤ q.2))

/-- A smallest pair of a nonempty list.  Used in the model of erode_d8_local.py:2269-2291. -/
def minPair (p : WithTop K × ℤ) : List (WithTop K × ℤ) → WithTop K × ℤ
  | [] => p
  | q :: l => minPair (if before p q then p else q) l

/-- `heapq.heappop`: a smallest pair and the remaining ones.
Used in the model of erode_d8_local.py:2269-2291. -/
def heappop (h : List (WithTop K × ℤ)) : Option ((WithTop K × ℤ) × List (WithTop K × ℤ)) :=
  match h with
  | [] => none
  | p :: l => some (minPair p l, (p :: l).erase (minPair p l))

/-- The loop of `update_active_ID` (erode_d8_local.py:2269-2291): pairs whose time is earlier than
the time now scheduled for the cell have been retracted and are dropped.  `heappop` of an empty
heap raises.  The first argument is the number of pairs in the heap. -/
def nextEvent (tNext : ℤ → WithTop K) : ℕ → List (WithTop K × ℤ) →
    Except String ((WithTop K × ℤ) × List (WithTop K × ℤ))
  | 0, _ => .error "IndexError: index out of range"
  | n + 1, h =>
    match heappop h with
    | none => .error "IndexError: index out of range"
    | some (p, h') => if p.1 < tNext p.2 then nextEvent tNext n h' else .ok (p, h')

/-! ## Bringing cells up to date -/

/-- `dz` of a cell: its rate times the time since it was brought up to date
(erode_d8_local.py:2518-2519, 3560-3561). -/
def dz (s : St K) (c : ℤ) : K := s.rate c * (s.clock - s.tLast c)

/-- `update_DEM` (erode_d8_local.py:2467-2710).  The running minimum and maximum of the DEM and
`dz_max_vec` are left out. -/
def updateDEM (s : St K) (ids : List ℤ) : St K :=
  { s with
    dem := fun c => if c ∈ ids then s.dem c + dz s c else s.dem c
    count := fun c => if c ∈ ids then s.count c + 1 else s.count c
    dzMax := (ids.map (fun c => |dz s c|)).foldr max 0 }

/-- `update_flux_cap_grid` (erode_d8_local.py:3551-3575). -/
def updateCap (s : St K) (ids : List ℤ) : St K :=
  { s with cap := fun c => if c ∈ ids then s.cap c + dz s c else s.cap c }

/-- `update_T_last_grid` (erode_d8_local.py:3579-3581). -/
def updateTLast (s : St K) (ids : List ℤ) : St K :=
  { s with tLast := fun c => if c ∈ ids then s.clock else s.tLast c }

/-- `test2`: the accumulated change is at least the target (erode_d8_local.py:3000-3040). -/
def tooFar (x : K) : Target K → Bool
  | .fin y => decide (|y| ≤ |x|)
  | .inf _ => false
  | .nan => false

/-- `test3`: the accumulated change has another sign than the target
(erode_d8_local.py:3002-3003, 3056). -/
def wrongSign (x : K) : Target K → Bool
  | .fin y => decide (SignType.sign x ≠ SignType.sign y)
  | .inf neg => decide (SignType.sign x ≠ if neg then -1 else 1)
  | .nan => true

/-- `NOW` (erode_d8_local.py:2998-3128). -/
def isNow (P : Par K) (s : St K) (c : ℤ) : Bool :=
  (((decide (s.code c = 0) && notEdge P.ny P.nx c) || tooFar (s.cap c) (s.target c)) ||
    wrongSign (s.cap c) (s.target c)) && decide (s.cap c ≠ 0)

/-- `update_neighbors` with `append_zone_IDs` and `append_all_now_IDs`
(erode_d8_local.py:2838-3236, 1757-1804).  `none`: the recursion is deeper than `fuel`. -/
def splash (P : Par K) : ℕ → List ℤ → St K → Option (Except String (St K))
  | 0, _, _ => none
  | n + 1, ids, s =>
    let nbr := (getNeighbors P.ny P.nx ids false).filter (fun i => i ∉ s.zone)
    if nbr = [] then some (.ok s)
    else if s.zone.length + nbr.length > P.cap then
      some (.error "SystemExit: Splash zone exceeded max size")
    else
      let s := { s with zone := s.zone ++ nbr }
      let s := updateTLast (updateCap (updateDEM s nbr) nbr) nbr
      let now := nbr.filter (isNow P s)
      if now = [] then some (.ok s)
      else if s.now.length + now.length > P.cap then
        some (.error "SystemExit: all_now_IDs exceeded max size")
      else
        splash P n now
          { s with now := s.now ++ now, cap := fun c => if c ∈ now then 0 else s.cap c }

/-! ## New rates and new events -/

/-- The eight neighbours of `update_dz_dt_grid` with the code each must have to flow into the cell
(erode_d8_local.py:4077-4160; `code_opps`, d8_base.py:589): row shift, column shift, code. -/
def donors : List (ℤ × ℤ × ℤ) :=
  [(-1, 1, 16), (0, 1, 32), (1, 1, 64), (1, 0, 128), (1, -1, 1), (0, -1, 2), (-1, -1, 4), (-1, 0, 8)]

/-- The neighbour of a cell, wrapping around (erode_d8_local.py:4027, 4077-4080). -/
def wrapNbr (P : Par K) (c dr dc : ℤ) : ℤ := (c / P.nx + dr) % P.ny * P.nx + (c % P.nx + dc) % P.nx

/-- `update_dz_dt_grid` (erode_d8_local.py:4001-4175). -/
def updateRate (P : Par K) (s : St K) (ids : List ℤ) : St K :=
  { s with
    rate := fun c =>
      if c ∈ P.base then -P.blr
      else if c ∈ ids then
        donors.foldl (fun x d => if s.code (wrapNbr P c d.1 d.2.1) = d.2.2
          then x + s.qs (wrapNbr P c d.1 d.2.1) / P.da else x) (-(s.qs c / P.da) + P.uplift)
      else s.rate c }

/-- `a / |b|` of a positive number, infinite for `b = 0` (erode_d8_local.py:1305-1306, 5084-5085). -/
def divAbs (a b : K) : WithTop K := if b = 0 then ⊤ else ((a / |b| : K) : WithTop K)

/-- The time step of a cell with sediment discharge: `CFL_factor * (da / 2) * del_z / Qs`
(erode_d8_local.py:1279-1280, 5072-5073). -/
def dtEqual (P : Par K) (dem : ℤ → K) (parent : ℤ → ℤ) (qs : ℤ → K) (c : ℤ) : K :=
  P.cfl * (P.da / 2 * (dem c - dem (parent c)) / qs c)

/-- The time step given to a cell by `update_dt_grid6` (erode_d8_local.py:5041-5124); the old one
is kept by cells with neither a positive discharge nor an inner pit. -/
def newDt (P : Par K) (s : St K) (ids : List ℤ) (c : ℤ) : WithTop K :=
  if s.activeCount > 10 ∧ c = s.active then (P.dtLimit : WithTop K)
  else if c ∈ ids then
    (if s.code c = 0 ∧ notEdge P.ny P.nx c = true then divAbs P.pitDz (s.rate c)
     else if s.qs c > 0 then ((dtEqual P s.dem s.parent s.qs c : K) : WithTop K)
     else s.dt c)
  else s.dt c

/-- `update_dt_grid6` (erode_d8_local.py:5008-5165): exits when one of the new time steps is not
positive. -/
def updateDt (P : Par K) (s : St K) (ids : List ℤ) : Except String (St K) :=
  if ∃ c ∈ ids, newDt P s ids c ≤ ((0 : K) : WithTop K) then .error "SystemExit: dt_min <= 0"
  else .ok { s with dt := newDt P s ids }

/-- Product of a time step and a rate.  Used in the model of erode_d8_local.py:5188-5215. -/
def timesRate (t : WithTop K) (r : K) : Target K :=
  match t with
  | some t => .fin (t * r)
  | none => if r = 0 then .nan else .inf (decide (r < 0))

/-- `update_dz_target_grid2` (erode_d8_local.py:5188-5215). -/
def updateTarget (s : St K) (ids : List ℤ) : St K :=
  { s with target := fun c => if c ∈ ids then timesRate (s.dt c) (s.rate c) else s.target c }

/-- `T_clock + dt`.  Used in the model of erode_d8_local.py:5287-5401. -/
def addTime (t : K) (d : WithTop K) : WithTop K :=
  match d with
  | some d => ((t + d : K) : WithTop K)
  | none => ⊤

/-- `update_T_next_grid` (erode_d8_local.py:5287-5401): cells on the edge are not scheduled. -/
def updateTNext (P : Par K) (s : St K) (ids : List ℤ) : St K :=
  let new := ids.filter (notEdge P.ny P.nx)
  { s with
    tNext := fun c => if c ∈ new then addTime s.clock (s.dt c) else s.tNext c
    heap := new.map (fun c => (addTime s.clock (s.dt c), c)) ++ s.heap }

/-- The rest of `update` after the splash zone is known (erode_d8_local.py:1957-2070) with
`check_stability` (erode_base.py:1965-1988) and `update_time` (BMI_base.py:1029-1043);
`check_finished` is left out.  `dt` of the clock is passed in. -/
def finish (P : Par K) (route : St K → Except String (Routed K)) (dtc : K) (s : St K) :
    Except String (St K) :=
  match route s with
  | .error e => .error e
  | .ok r =>
    let s := { s with code := r.code, parent := r.parent,
                      qs := fun c => if c ∈ s.zone then r.qs c else s.qs c }
    let s := updateRate P s s.zone
    match updateDt P s s.now with
    | .error e => .error e
    | .ok s =>
      let s := updateTNext P (updateTarget s s.now) s.now
      .ok { s with done := s.done || decide (s.dzMax > 1000),
                   time := s.time + dtc, timeIndex := s.timeIndex + 1 }

/-- The active cell is brought up to date and starts the zone (erode_d8_local.py:1880-1888,
1719-1746). -/
def activate (id : ℤ) (s : St K) : St K :=
  let s := updateDEM s [id]
  let s := { s with cap := fun c => if c = id then 0 else s.cap c }
  let s := updateTLast s [id]
  { s with zone := [id], now := [id] }

/-- `update_active_ID` after the loop and `update_T_clock` (erode_d8_local.py:2351-2367,
2397-2411). -/
def select (s : St K) (t : K) (id : ℤ) (h : List (WithTop K × ℤ)) : St K :=
  { s with heap := h, clock := t, active := id, last := id,
           activeCount := if id = s.last then s.activeCount + 1 else 0 }

/-- One call of `update` of an enabled component (erode_d8_local.py:1819-2070; writing of output
files left out).  A clock of infinity (the earliest event has an infinite time) is not modelled
further. -/
def update (P : Par K) (route : St K → Except String (Routed K)) (fuel : ℕ) (s : St K) :
    Option (Except String (St K)) :=
  match nextEvent s.tNext s.heap.length s.heap with
  | .error e => some (.error e)
  | .ok ((none, _), _) => some (.error "T_clock = inf")
  | .ok ((some t, id), h) =>
    if t - s.clock < 0 then some (.error "SystemExit: Time is going backwards!")
    else
      match splash P fuel [id] (activate id (select s t id h)) with
      | none => none
      | some (.error e) => some (.error e)
      | some (.ok s') => some (finish P route (t - s.clock) s')

/-! ## Start and end of a run -/

/-- All IDs of the grid.  Used in the model of erode_d8_local.py:390-493. -/
def cells (P : Par K) : List ℤ := (List.range (P.ny * P.nx)).map (fun i : ℕ => (i : ℤ))

/-- `initialize_dt_grid5` (erode_d8_local.py:1257-1313). -/
def dt0 (P : Par K) (dem : ℤ → K) (r : Routed K) (rate : ℤ → K) (c : ℤ) : WithTop K :=
  if c ∈ P.base then (P.dtLimit : WithTop K)
  else if r.code c = 0 then divAbs P.pitDz (rate c)
  else if r.qs c > 0 then ((dtEqual P dem r.parent r.qs c : K) : WithTop K)
  else ((0 : K) : WithTop K)

/-- The part of `initialize_computed_vars` (erode_d8_local.py:390-493) that sets up the time steps,
targets and events from the DEM, the routing and the rates; it exits when a time step is not
positive (1394-1395).  The initial rates (778-849) are any grid. -/
def start (P : Par K) (dem : ℤ → K) (r : Routed K) (rate : ℤ → K) : Except String (St K) :=
  if ∃ c ∈ cells P, dt0 P dem r rate c ≤ ((0 : K) : WithTop K) then .error "SystemExit: dt_min <= 0"
  else .ok
    { dem := dem, rate := rate, cap := fun _ => 0
      target := fun c => if r.code c = 0 ∧ notEdge P.ny P.nx c = true then .fin 0
        else timesRate (dt0 P dem r rate c) (rate c)
      qs := r.qs, code := r.code, parent := r.parent
      dt := dt0 P dem r rate, tLast := fun _ => 0, tNext := dt0 P dem r rate
      heap := (cells P).map (fun c => (dt0 P dem r rate c, c))
      clock := 0, time := 0, timeIndex := 0, active := 0, last := 0, activeCount := 0
      zone := [], now := [], count := fun _ => 0, dzMax := -9999, done := false }

/-- `update_entire_DEM`, called by `finalize` (erode_d8_local.py:2731-2792, 2175). -/
def finalDEM (s : St K) (c : ℤ) : K := s.dem c + dz s c

end
end ErodeLocal
