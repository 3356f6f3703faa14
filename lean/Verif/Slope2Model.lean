import Mathlib.Algebra.Order.Field.Basic
import Mathlib.Data.List.Basic

/-!
# Model of `get_new_slope_grid2` (`topoflow/utils/new_slopes.py:317-943`)

Flow paths with slopes of zero are followed down to the next drop and get the mean slope of the path.
Exact arithmetic in an ordered field instead of floats.  The D8 component is given by its results (the
parents, flow lengths, flow codes and areas); its own model is `D8Model`.  Not modelled: reading the DEM,
printing (except that minima of empty arrays fail), the file that is written.
-/

set_option autoImplicit false

namespace Slope2

variable {C K : Type*} [DecidableEq C] [Field K] [LinearOrder K]

/-- What the D8 component delivers (new_slopes.py:336-360), and `maxlen` (562).  `cells` lists the grid row
by row, `corner` is the cell with ID 0, `par` is `parent_IDs`, `flow c` says that the flow code is not zero,
`alone c` that the contributing area is the area of the cell (`da == d8.A`, 470-472). -/
structure Grid (C K : Type*) where
  cells : List C
  corner : C
  par : C → C
  flow : C → Bool
  alone : C → Bool
  z : C → K
  ds : C → K
  nodata : K
  maxlen : ℕ

/-- `dz` (new_slopes.py:367-387). -/
def dz (g : Grid C K) (c : C) : K :=
  if g.z c ≤ g.nodata ∨ g.z (g.par c) ≤ g.nodata ∨ g.flow c = false then 0 else g.z c - g.z (g.par c)

/-- `slope` before the loop, which is kept as `d8_slope` (new_slopes.py:392-418). -/
def slope0 (g : Grid C K) (c : C) : K :=
  if g.flow c = false then -999 else if 0 < dz g c then dz g c / g.ds c else 0

/-- The three smallest positive slopes exist (new_slopes.py:431-434, 914-916; otherwise the minimum of an
empty array raises ValueError). -/
def three (g : Grid C K) (f : C → K) : Bool :=
  decide (∃ a ∈ g.cells, ∃ b ∈ g.cells, ∃ c ∈ g.cells, 0 < f a ∧ f a < f b ∧ f b < f c)

/-- The first cells of the paths (new_slopes.py:451-480): `normal` or `special`. -/
def isStart (g : Grid C K) (c : C) : Bool :=
  (decide (0 < slope0 g c) && decide (slope0 g (g.par c) = 0)) ||
    (g.alone c && decide (slope0 g c = 0))

/-- One path: the elements with the same index of `start_zs` (by the start cell), `pIDs`, `distances`,
`chan_IDs` (a row) and `resolved`.  Used in the model of new_slopes.py:545-580. -/
structure Path (C K : Type*) where
  start : C
  cur : C
  dist : K
  chan : ℕ → C
  resolved : Bool

/-- The variables of the loop.  Used in the model of new_slopes.py:545-687. -/
structure State (C K : Type*) where
  paths : List (Path C K)
  idx : ℕ
  slope : C → K

/-- The row of a start cell (new_slopes.py:545-579). -/
def newPath (g : Grid C K) (c : C) : Path C K :=
  ⟨c, g.par c, g.ds c, fun i => if i = 0 then c else if i = 1 then g.par c else g.corner, false⟩

/-- The variables before the loop (new_slopes.py:545-580). -/
def start (g : Grid C K) : State C K :=
  ⟨(g.cells.filter (isStart g)).map (newPath g), 2, slope0 g⟩

/-- `chan_IDs[w, i] = c`.  Used in the model of new_slopes.py:731-742, 858. -/
def setChan (f : ℕ → C) (i : ℕ) (c : C) : ℕ → C := fun j => if j = i then c else f j

/-- One path in one pass, without the slopes and before `resolved` is set for the paths that have come to
a drop (new_slopes.py:668-671, 687-709, 731-746, 845-858). -/
def advance (g : Grid C K) (idx : ℕ) (p : Path C K) : Path C K :=
  let c := g.par p.cur
  let d := p.dist + g.ds p.cur
  if 0 < slope0 g c then
    { p with
      cur := c
      dist := d + g.ds c
      chan := setChan (setChan p.chan idx c) (idx + 1) (g.par c) }
  else if slope0 g c = 0 then
    { p with
      cur := c
      dist := d
      chan := setChan p.chan idx c }
  else
    { p with
      cur := c
      dist := d
      resolved := true }

/-- The path has come to a drop and is not resolved (new_slopes.py:753-755). -/
def ready (g : Grid C K) (p : Path C K) : Bool := decide (0 < slope0 g p.cur) && !p.resolved

/-- `new_slope` (new_slopes.py:720-723, 756). -/
def newSlope (g : Grid C K) (p : Path C K) : K := (g.z p.start - g.z (g.par p.cur)) / p.dist

/-- The cells of a path get the new slope, unless they have a smaller one that is positive
(new_slopes.py:815-818). -/
def lower (slope : C → K) (cells : List C) (v : K) : C → K := fun c =>
  if c ∈ cells then
    min v (if max 0 (slope c) ≤ 0 then 99999 else max 0 (slope c))
  else slope c

/-- `ready_ID_vals` (new_slopes.py:777-806). -/
def readyCells (idx : ℕ) (p : Path C K) : List C := (List.range (idx + 1)).map p.chan

/-- The `for` loop over the paths that have come to a drop (new_slopes.py:753-828). -/
def lowerAll (g : Grid C K) (idx : ℕ) : List (Path C K) → (C → K) → (C → K)
  | [], slope => slope
  | p :: ps, slope =>
    lowerAll g idx ps (if ready g p then lower slope (readyCells idx p) (newSlope g p) else slope)

/-- `resolved` after a pass (new_slopes.py:828). -/
def mark (g : Grid C K) (p : Path C K) : Path C K :=
  if 0 < slope0 g p.cur then { p with resolved := true } else p

/-- One pass of the `while` loop (new_slopes.py:661-865).  The rows have `maxlen` elements. -/
def pass (g : Grid C K) (s : State C K) : Except String (State C K) :=
  let ps := s.paths.map (advance g s.idx)
  let ng := ps.any (fun p => decide (0 < slope0 g p.cur))
  let nb := ps.any (fun p => decide (slope0 g p.cur = 0))
  if g.maxlen ≤ s.idx - 1 then .error "IndexError"
  else if ng = true ∧ g.maxlen ≤ s.idx + 1 then .error "IndexError"
  else if nb = true ∧ g.maxlen ≤ s.idx then .error "IndexError"
  else .ok ⟨ps.map (mark g), if nb then s.idx + 1 else s.idx, lowerAll g s.idx ps s.slope⟩

/-- `n_unresolved == 0` or `pv_max == 0` (new_slopes.py:869-870). -/
def done (g : Grid C K) (s : State C K) : Bool :=
  s.paths.all (fun p => p.resolved) || s.paths.all (fun p => decide (p.cur = g.corner))

/-- The `while` loop, with at most `n` more passes because of `n_reps > maxlen` (new_slopes.py:661-870). -/
def loop (g : Grid C K) : ℕ → State C K → Except String (State C K)
  | 0, s => .ok s
  | n + 1, s =>
    match pass g s with
    | .error e => .error e
    | .ok t => if done g t then .ok t else loop g n t

/-- `get_new_slope_grid2`: the grid that is written; `none` if the function returns before that because
every cell has a drop (new_slopes.py:424-426).  Without start cells the loop is not entered, and
`n_unresolved` is not defined afterwards (657, 878). -/
def newSlopeGrid2 (g : Grid C K) : Except String (Option (C → K)) :=
  if g.cells.all (fun c => decide (0 < dz g c)) then .ok none
  else if three g (slope0 g) = false then .error "ValueError"
  else if g.cells.filter (isStart g) = [] then .error "UnboundLocalError"
  else
    match loop g (g.maxlen + 1) (start g) with
    | .error e => .error e
    | .ok s =>
      let f := fun c => if g.flow c then s.slope c else 0
      if three g f = false then .error "ValueError" else .ok (some f)

end Slope2
