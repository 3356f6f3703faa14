import Mathlib.Data.Fintype.Prod
import Mathlib.Algebra.Order.Field.Basic
import Mathlib.Algebra.BigOperators.Fin

/-!
# Model of the D8 component (`components/d8_base.py`, `components/d8_global.py`)

A grid with `ny` rows and `nx` columns is a function on `Cell ny nx = Fin ny × Fin nx`
(row, column).  Grid dimensions are assumed small enough that `int32`/`int16`
arithmetic does not overflow; flow codes are modelled as `Int`, IDs as `Int`.
Elevations live in an arbitrary linearly ordered field, i.e. float rounding,
NaN and infinities are not modelled (NODATA is).
-/

namespace D8

/-- A grid cell, `(row, col)`.  Used in the model of d8_global.py:461-468. -/
abbrev Cell (ny nx : ℕ) := Fin ny × Fin nx

/-- `rows_D = (rows + 1) % ny`, `cols_R = (cols + 1) % nx`
(d8_global.py:448-451, 1119-1122; same neighbour as `np.roll(.., -1)`, 226-233). -/
def inc {n : ℕ} (i : Fin n) : Fin n :=
  ⟨(i.val + 1) % n, Nat.mod_lt _ (Nat.lt_of_le_of_lt (Nat.zero_le _) i.isLt)⟩

/-- `rows_U = (rows - 1) % ny`, `cols_L = (cols - 1) % nx` with python's non-negative `%`
(d8_global.py:448-451, 1119-1122; same neighbour as `np.roll(.., 1)`, 226-233). -/
def dec {n : ℕ} (i : Fin n) : Fin n :=
  ⟨(i.val + n - 1) % n, Nat.mod_lt _ (Nat.lt_of_le_of_lt (Nat.zero_le _) i.isLt)⟩

/-- The neighbour in each of the 8 directions, in the order of `code_list`
(d8_global.py:461-468 for `d0..d7`, and the rolls in 226-233 for `s1..s8`):
0 = upper-right, 1 = right, 2 = lower-right, 3 = bottom, 4 = lower-left, 5 = left,
6 = upper-left, 7 = top. -/
def nbr {ny nx : ℕ} (k : Fin 8) (c : Cell ny nx) : Cell ny nx :=
  match k with
  | 0 => (dec c.1, inc c.2)
  | 1 => (c.1, inc c.2)
  | 2 => (inc c.1, inc c.2)
  | 3 => (inc c.1, c.2)
  | 4 => (inc c.1, dec c.2)
  | 5 => (c.1, dec c.2)
  | 6 => (dec c.1, dec c.2)
  | 7 => (dec c.1, c.2)

/-- `code_list = [1, 2, 4, 8, 16, 32, 64, 128]` (d8_base.py:576; the `ARC` variant is never
requested by any caller and is not modelled). -/
def codeList : Fin 8 → ℤ := ![1, 2, 4, 8, 16, 32, 64, 128]

/-- `code_opps = [16, 32, 64, 128, 1, 2, 4, 8]` (d8_base.py:589). -/
def codeOpps : Fin 8 → ℤ := ![16, 32, 64, 128, 1, 2, 4, 8]

/-! ## The tie-break table -/

/-- `resolve[[i, j, ...]] = v` on a table.  Used in the model of d8_base.py:711-761. -/
def setAll (t : List ℕ) (idx : List ℕ) (v : ℕ) : List ℕ :=
  idx.foldl (fun t i => t.set i v) t

/-- One pass of the loop in `resolve_array_cycle` on one entry (d8_base.py:702-706):
`v = v*2; v += (v > 255); v = v & 255`. -/
def cycle1 (v : ℕ) : ℕ :=
  let v := v * 2
  let v := if v > 255 then v + 1 else v
  v &&& 255

/-- `resolve_array_cycle(w, t)` (d8_base.py:689-707). -/
def resolveArrayCycle (w : List ℕ) (t : ℕ) : List ℕ :=
  w.map (fun v => (cycle1^[t]) v)

/-- The list `w` of `get_resolve_array` (d8_base.py:747-751). -/
def resolveW : List ℕ :=
  [2, 3, 6, 7, 10, 11, 14, 15, 18, 19, 22, 23] ++
  [27,31,35,38,39,43,47,54,55,66,67,70] ++
  [71,74,75,78,79,82,83,86,87,91,95,103] ++
  [107,111,134,135,138,139,142,143,150,151,155] ++
  [159,166,167,171,175,183,191,206,207,223]

/-- `get_resolve_array` (d8_base.py:711-761): the same assignments in the same order. -/
def resolveTable : List ℕ :=
  let r := List.replicate 256 0
  let r := setAll r [17, 85] 1
  let r := setAll r [34, 102, 119, 238, 170] 2
  let r := setAll r [136, 153, 187, 221, 255] 8
  let r := setAll r [68] 4
  let r := setAll r [51] 32
  let r := setAll r [204] 128
  let r := setAll r [1, 5, 69] 1
  let r := setAll r [4, 20, 21] 4
  let r := setAll r [16, 80, 84] 16
  let r := setAll r [64, 65, 81] 64
  let r := setAll r resolveW 2
  let r := setAll r (resolveArrayCycle resolveW 2) 8
  let r := setAll r (resolveArrayCycle resolveW 4) 32
  let r := setAll r (resolveArrayCycle resolveW 6) 128
  r

/-- `self.resolve[ code ]` for a code in `0..255` (all uses pass such codes).
Negative python indices cannot occur because the callers select codes `> 0`. -/
def resolve (code : ℤ) : ℤ := (resolveTable.getD code.toNat 0 : ℕ)

/-! ## Flow codes from a DEM -/

/-- The configuration read by the component: pixel sizes, nodata value and toggles
(d8_base.py:418-440, d8_global.py:206-212). -/
structure Config (K : Type*) where
  dx : K
  dy : K
  dd : K
  nodata : K
  linkFlats : Bool
  breakTies : Bool
  lrPeriodic : Bool
  tbPeriodic : Bool

section
variable {K : Type*} [Field K] [LinearOrder K]
variable {ny nx : ℕ}

/-- Distance divided by in each direction: `dd, dx, dd, dy, dd, dx, dd, dy`
(d8_global.py:226-233). -/
def Config.dist (cfg : Config K) : Fin 8 → K :=
  ![cfg.dd, cfg.dx, cfg.dd, cfg.dy, cfg.dd, cfg.dx, cfg.dd, cfg.dy]

/-- The slope grids `s1..s8` (d8_global.py:226-233). -/
def slope (cfg : Config K) (z : Cell ny nx → K) (c : Cell ny nx) (k : Fin 8) : K :=
  (z c - z (nbr k c)) / cfg.dist k

/-- `max_slope` (d8_global.py:251-257): pairwise maxima in order. -/
def maxSlope (s : Fin 8 → K) : K :=
  max (max (max (max (max (max (max (s 0) (s 1)) (s 2)) (s 3)) (s 4)) (s 5)) (s 6)) (s 7)

/-- The sum of codes of the steepest directions (d8_global.py:267-275). -/
def steepSum (s : Fin 8 → K) : ℤ :=
  (if s 0 = maxSlope s then codeList 0 else 0) +
  (if s 1 = maxSlope s then codeList 1 else 0) +
  (if s 2 = maxSlope s then codeList 2 else 0) +
  (if s 3 = maxSlope s then codeList 3 else 0) +
  (if s 4 = maxSlope s then codeList 4 else 0) +
  (if s 5 = maxSlope s then codeList 5 else 0) +
  (if s 6 = maxSlope s then codeList 6 else 0) +
  (if s 7 = maxSlope s then codeList 7 else 0)

/-- Cell is on the left/right edge.  Used in the model of d8_global.py:181-335. -/
def onLR (c : Cell ny nx) : Bool := c.2.val = 0 ∨ c.2.val = nx - 1
/-- Cell is on the top/bottom edge.  Used in the model of d8_global.py:181-335. -/
def onTB (c : Cell ny nx) : Bool := c.1.val = 0 ∨ c.1.val = ny - 1

/-- `start_new_d8_codes` (d8_global.py:181-335), evaluated at one cell: steepest-descent
code sum; flats/pits zeroed (no LINK_FLATS) or flagged (negated sum for flats, -300 for
pits); zero on nodata; zero on non-periodic borders. -/
def startCode (cfg : Config K) (z : Cell ny nx → K) (c : Cell ny nx) : ℤ :=
  let s := slope cfg z c
  let code := steepSum s
  let code :=
    if cfg.linkFlats = false then
      (if maxSlope s ≤ 0 then 0 else code)
    else
      let code := if maxSlope s = 0 then -1 * code else code
      (if maxSlope s < 0 then -300 else code)
  let code := if z c ≤ cfg.nodata then 0 else code
  let code := if cfg.lrPeriodic = false ∧ onLR c then 0 else code
  let code := if cfg.tbPeriodic = false ∧ onTB c then 0 else code
  code

/-- `break_flow_grid_ties` (d8_global.py:355-370). -/
def breakTies (d : Cell ny nx → ℤ) (c : Cell ny nx) : ℤ :=
  if d c > 0 then resolve (d c) else d c

/-- `NOT_EDGE == 1` (d8_base.py:673-680): the cell is not one of the edge cells.
(The list of edge IDs is modelled in `edgeIDs`, shown to be exactly these cells.) -/
def notEdge (c : Cell ny nx) : Bool := !(onLR c || onTB c)

/-- `flats` in `link_flats` (d8_global.py:429-431). -/
def isFlat (d : Cell ny nx → ℤ) (c : Cell ny nx) : Bool :=
  d c < 0 ∧ d c ≠ -300 ∧ notEdge c

/-- `VALIDk` (d8_global.py:494-501). -/
def valid (d : Cell ny nx → ℤ) (c : Cell ny nx) (k : Fin 8) : Bool :=
  d (nbr k c) > 0 ∧ d (nbr k c) ≠ codeOpps k

/-- The chain `ALLOWED7 .. ALLOWED0` (d8_global.py:508-524): successive comparison and
subtraction, most significant code first.  Returned in the order `k = 0..7`. -/
def allowed (code : ℤ) : Fin 8 → Bool :=
  let a7 := decide (code ≥ codeList 7)
  let c6 := code - (if a7 then codeList 7 else 0)
  let a6 := decide (c6 ≥ codeList 6)
  let c5 := c6 - (if a6 then codeList 6 else 0)
  let a5 := decide (c5 ≥ codeList 5)
  let c4 := c5 - (if a5 then codeList 5 else 0)
  let a4 := decide (c4 ≥ codeList 4)
  let c3 := c4 - (if a4 then codeList 4 else 0)
  let a3 := decide (c3 ≥ codeList 3)
  let c2 := c3 - (if a3 then codeList 3 else 0)
  let a2 := decide (c2 ≥ codeList 2)
  let c1 := c2 - (if a2 then codeList 2 else 0)
  let a1 := decide (c1 ≥ codeList 1)
  let c0 := c1 - (if a1 then codeList 1 else 0)
  let a0 := decide (c0 ≥ codeList 0)
  ![a0, a1, a2, a3, a4, a5, a6, a7]

/-- `ready_code` (d8_global.py:532-539). -/
def readyCode (d : Cell ny nx → ℤ) (c : Cell ny nx) : ℤ :=
  let al := allowed (-1 * d c)
  (if valid d c 0 && al 0 then codeList 0 else 0) +
  (if valid d c 1 && al 1 then codeList 1 else 0) +
  (if valid d c 2 && al 2 then codeList 2 else 0) +
  (if valid d c 3 && al 3 then codeList 3 else 0) +
  (if valid d c 4 && al 4 then codeList 4 else 0) +
  (if valid d c 5 && al 5 then codeList 5 else 0) +
  (if valid d c 6 && al 6 then codeList 6 else 0) +
  (if valid d c 7 && al 7 then codeList 7 else 0)

/-- `FIXABLE` cells of one pass (d8_global.py:541-542). -/
def fixable (d : Cell ny nx → ℤ) (c : Cell ny nx) : Bool :=
  isFlat d c && decide (readyCode d c > 0)

/-- One pass of the `link_flats` loop body: all reads happen before all writes
(d8_global.py:427-552). -/
def linkPass (d : Cell ny nx → ℤ) (c : Cell ny nx) : ℤ :=
  if fixable d c then resolve (readyCode d c) else d c

/-- `flats[0].size`.  Used in the model of d8_global.py:426-560. -/
def nFlats (d : Cell ny nx → ℤ) : ℕ := (Finset.univ.filter (fun c => isFlat d c)).card
/-- `FIXABLE[0].size`.  Used in the model of d8_global.py:426-560. -/
def nFixable (d : Cell ny nx → ℤ) : ℕ := (Finset.univ.filter (fun c => fixable d c)).card

/-- The `while (True)` loop of `link_flats` (d8_global.py:426-560) run for at most `fuel`
iterations; `none` means that it has not stopped within `fuel` iterations. -/
def linkLoop : ℕ → (Cell ny nx → ℤ) → Option (Cell ny nx → ℤ)
  | 0, _ => none
  | fuel + 1, d =>
    if nFlats d = 0 then some d
    else
      let d' := linkPass d
      if nFixable d = nFlats d ∨ nFixable d = 0 then some d'
      else linkLoop fuel d'

/-- The final conversion to a byte grid: codes outside `0..128` are set to 0, then mapped
by `valid_code_map` (d8_global.py:143-146, d8_base.py:597-605). -/
def validCodeMap (code : ℤ) : ℤ :=
  if code < 0 ∨ code > 128 then 0
  else if code ∈ [1, 2, 4, 8, 16, 32, 64, 128] then code else 0

/-- `update_flow_grid` (d8_global.py:99-146), with the given iteration budget for
`link_flats`.  RT3_TEST file comparison and prints are not modelled. -/
def updateFlowGrid (cfg : Config K) (fuel : ℕ) (z : Cell ny nx → K) :
    Option (Cell ny nx → ℤ) :=
  let d := startCode cfg z
  let d := if cfg.breakTies then breakTies d else d
  let d? := if cfg.linkFlats then linkLoop fuel d else some d
  d?.map (fun d c => validCodeMap (d c))

end

/-! ## IDs -/
section
variable {ny nx : ℕ}

/-- `ID_grid` (d8_base.py:609-620): calendar-style index. -/
def flatID (c : Cell ny nx) : ℤ := (c.1.val * nx + c.2.val : ℕ)

/-- `get_edge_IDs` (d8_base.py:642-663) as flat IDs, before `divmod`.
`np.arange(ny - 2)` is empty when `ny < 2`, as is `List.range` of truncated subtraction. -/
def edgeIDs (ny nx : ℕ) : List ℕ :=
  let tIDs := List.range nx
  let bIDs := tIDs.map (fun i => i + (ny - 1) * nx)
  let lIDs := (List.range (ny - 2)).map (fun i => (1 + i) * nx)
  let rIDs := lIDs.map (fun i => i + (nx - 1))
  tIDs ++ bIDs ++ lIDs ++ rIDs

/-- `incs` (d8_base.py:632-633). -/
def incs (nx : ℕ) : Fin 8 → ℤ :=
  ![-(nx:ℤ) + 1, 1, nx + 1, nx, nx - 1, -1, -(nx:ℤ) - 1, -(nx:ℤ)]

/-- `inc_map[code]` (d8_base.py:635-638): zero except at the eight codes. -/
def incMap (nx : ℕ) (code : ℤ) : ℤ :=
  if code = 1 then incs nx 0
  else if code = 2 then incs nx 1
  else if code = 4 then incs nx 2
  else if code = 8 then incs nx 3
  else if code = 16 then incs nx 4
  else if code = 32 then incs nx 5
  else if code = 64 then incs nx 6
  else if code = 128 then incs nx 7
  else 0

/-- `update_parent_ID_grid` (d8_global.py:578-648) at one cell; the four edge blocks are
applied in the order of the code (R, L, then T, B), the last step zeroes no-flow cells. -/
def parentID (lr tb : Bool) (d : Cell ny nx → ℤ) (c : Cell ny nx) : ℤ :=
  let p := flatID c + incMap nx (d c)
  let onR : Bool := c.2.val = nx - 1
  let onL : Bool := c.2.val = 0
  let onT : Bool := c.1.val = 0
  let onB : Bool := c.1.val = ny - 1
  let p := if lr then
      let p := if onR ∧ (d c = 1 ∨ d c = 2 ∨ d c = 4) then p - nx else p
      (if onL ∧ (d c = 16 ∨ d c = 32 ∨ d c = 64) then p + nx else p)
    else
      (if onR ∨ onL then 0 else p)
  let p := if tb then
      let p := if onT ∧ (d c = 1 ∨ d c = 64 ∨ d c = 128) then p + (nx * ny : ℕ) else p
      (if onB ∧ (d c = 4 ∨ d c = 8 ∨ d c = 16) then p - (nx * ny : ℕ) else p)
    else
      (if onT ∨ onB then 0 else p)
  if d c ≤ 0 then 0 else p

/-- All cells in `np.where` (row-major) order.  Used in the model of d8_global.py:723-758. -/
def allCells (ny nx : ℕ) : List (Cell ny nx) :=
  (List.finRange ny).flatMap (fun r => (List.finRange nx).map (fun c => (r, c)))

/-- `w_{k+1} = np.where(d8_grid == g[k])` (d8_global.py:723-758). -/
def flowFromIDs (d : Cell ny nx → ℤ) (k : Fin 8) : List (Cell ny nx) :=
  (allCells ny nx).filter (fun c => d c = codeList k)

/-- `p_{k+1}`: the parent IDs of the cells in `w_{k+1}` (d8_global.py:766-839), as flat IDs
(the code stores `divmod(p, nx)`). -/
def flowToIDs (lr tb : Bool) (d : Cell ny nx → ℤ) (k : Fin 8) : List ℤ :=
  (flowFromIDs d k).map (parentID lr tb d)

/-- `noflow_IDs = np.where(d8_grid <= 0)`; when there are none the code evaluates
`self.edge_IDs()`, i.e. calls a tuple, which raises `TypeError` (d8_global.py:843-863):
modelled as `none`. -/
def noflowIDs (d : Cell ny nx → ℤ) : Option (List (Cell ny nx)) :=
  let l := (allCells ny nx).filter (fun c => d c ≤ 0)
  if l.length ≠ 0 then some l else none

end

/-! ## Contributing area -/
section
variable {K : Type*} [AddCommMonoid K] [DecidableEq K]
variable {ny nx : ℕ}

/-- A cell is `unknown` (d8_global.py:1097). -/
def unknown (d : Cell ny nx → ℤ) (A : Cell ny nx → K) (c : Cell ny nx) : Bool :=
  A c = 0 ∧ d c ≠ 0

/-- `READY` (d8_global.py:1166-1205): no child with unknown area. -/
def ready (d : Cell ny nx → ℤ) (A : Cell ny nx → K) (c : Cell ny nx) : Bool :=
  let notReady (k : Fin 8) : Bool := d (nbr k c) = codeOpps k ∧ A (nbr k c) = 0
  !(notReady 0 || notReady 1 || notReady 2 || notReady 3 ||
    notReady 4 || notReady 5 || notReady 6 || notReady 7)

/-- The area assigned to a ready cell: its own area, then the areas of its children added in
the order of directions (d8_global.py:1221-1258). -/
def assignArea (pa : Cell ny nx → K) (d : Cell ny nx → ℤ) (A : Cell ny nx → K)
    (c : Cell ny nx) : K :=
  let add (a : K) (k : Fin 8) : K := if d (nbr k c) = codeOpps k then a + A (nbr k c) else a
  add (add (add (add (add (add (add (add (pa c) 0) 1) 2) 3) 4) 5) 6) 7

/-- One pass of the `while` loop; areas of neighbours are read before any write
(d8_global.py:1085-1258). -/
def areaPass (pa : Cell ny nx → K) (d : Cell ny nx → ℤ) (A : Cell ny nx → K)
    (c : Cell ny nx) : K :=
  if unknown d A c && ready d A c then assignArea pa d A c else A c

/-- `n_unknown`.  Used in the model of d8_global.py:1083-1272. -/
def nUnknown (d : Cell ny nx → ℤ) (A : Cell ny nx → K) : ℕ :=
  (Finset.univ.filter (fun c => unknown d A c)).card
/-- `n_ready`.  Used in the model of d8_global.py:1083-1272. -/
def nReady (d : Cell ny nx → ℤ) (A : Cell ny nx → K) : ℕ :=
  (Finset.univ.filter (fun c => unknown d A c && ready d A c)).card

/-- The `while (True)` loop of `update_area_grid` (d8_global.py:1083-1272) with an iteration
budget; `none` = not finished within the budget.
`UNFINISHED = (n_unknown != 0 and n_ready != n_unknown)`, `STILL_ACTIVE = (n_ready != 0)`. -/
def areaLoop (pa : Cell ny nx → K) (d : Cell ny nx → ℤ) :
    ℕ → (Cell ny nx → K) → Option (Cell ny nx → K)
  | 0, _ => none
  | fuel + 1, A =>
    if nUnknown d A ≠ 0 then
      let A' := areaPass pa d A
      if ¬ (nReady d A ≠ nUnknown d A) ∨ ¬ (nReady d A ≠ 0) then some A'
      else areaLoop pa d fuel A'
    else some A

/-- `update_area_grid` (d8_global.py:1029-1271).  The reset
`self.A[:] = np.minimum(self.A, 0)` gives the zero grid for every non-negative `A`, which is
the only case that occurs (areas are sums of positive pixel areas). -/
def updateAreaGrid (pa : Cell ny nx → K) (d : Cell ny nx → ℤ) (fuel : ℕ) :
    Option (Cell ny nx → K) :=
  areaLoop pa d fuel (fun _ => 0)

end
end D8
