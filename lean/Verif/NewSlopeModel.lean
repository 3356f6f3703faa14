import Verif.D8GeomModel

/-!
# Model of the slope utilities (`topoflow/utils/new_slopes.py`)

`get_d8_slope_grid`, `get_new_slope_grid` and `smooth_dem`.  Exact arithmetic in an ordered field
instead of floats.  Not modelled: files and printing (except that taking the minimum of an empty array
fails).  `get_new_slope_grid2` is modelled in `Slope2Model`.
-/

set_option autoImplicit false

namespace NewSlope
open D8 D8Geom

variable {K : Type*} [Field K] [LinearOrder K]
variable {ny nx : ℕ}

/-- The cell with ID 0.  Used in the model of d8_global.py:652-684. -/
def corner (hy : 0 < ny) (hx : 0 < nx) : Cell ny nx := (⟨0, hy⟩, ⟨0, hx⟩)

/-- `d8.parent_IDs`, the pair `divmod(parent_ID_grid, nx)` used as an index (d8_global.py:652-684): the
cell of the parent ID.  (The parent IDs of D8 codes are IDs of cells, see C03, so that the default does
not matter.) -/
def parent (hy : 0 < ny) (hx : 0 < nx) (lr tb : Bool) (d : Cell ny nx → ℤ) (c : Cell ny nx) :
    Cell ny nx :=
  (cellOfID (parentID lr tb d c)).getD (corner hy hx)

/-- `slope[ slope > 0 ].min()` (new_slopes.py:137, 246) exists. -/
def anyPositive (S : Cell ny nx → K) : Bool := (allCells ny nx).any fun c => 0 < S c

/-! ## The simple slope grid -/

/-- `get_d8_slope_grid` (new_slopes.py:113-171) without a file name: drop to the parent over flow length
where the drop is positive, zero elsewhere, NaN (`none`) at the `noflow_IDs`.  The outer `none` is an
exception: of `update_noflow_IDs`, or of the minimum of no positive slope. -/
def d8SlopeGrid (par : Cell ny nx → Cell ny nx) (d : Cell ny nx → ℤ) (z ds : Cell ny nx → K) :
    Option (Cell ny nx → Option K) :=
  match noflowIDs d with
  | none => none
  | some l =>
    let slope : Cell ny nx → K := fun c => if 0 < z c - z (par c) then (z c - z (par c)) / ds c else 0
    let S : Cell ny nx → Option K := fun c => if c ∈ l then none else some (slope c)
    if (allCells ny nx).any (fun c => c ∉ l ∧ 0 < slope c) then some S else none

/-! ## The improved slope grid -/

/-- Variables of the loop: `pIDs` (as cells), `distance`, `slope`, `n_reps`.
Used in the model of new_slopes.py:208-215. -/
structure St (K : Type*) (ny nx : ℕ) where
  p : Cell ny nx → Cell ny nx
  dist : Cell ny nx → K
  slope : Cell ny nx → K
  reps : ℕ

/-- The variables before the loop (new_slopes.py:208-215). -/
def init (par : Cell ny nx → Cell ny nx) (ds : Cell ny nx → K) : St K ny nx :=
  ⟨par, ds, fun _ => 0, 0⟩

/-- `dz` (new_slopes.py:220-230): zero where the cell reached has no data or the cell itself no flow
code. -/
def drop (d : Cell ny nx → ℤ) (z : Cell ny nx → K) (nodata : K) (s : St K ny nx) (c : Cell ny nx) : K :=
  if z (s.p c) ≤ nodata ∨ d c = 0 then 0 else z c - z (s.p c)

/-- `wg` (new_slopes.py:236). -/
def good (d : Cell ny nx → ℤ) (z : Cell ny nx → K) (nodata : K) (s : St K ny nx) (c : Cell ny nx) : Bool :=
  s.slope c = 0 ∧ 0 < drop d z nodata s c

/-- One pass of the loop (new_slopes.py:219-265). -/
def pass (par : Cell ny nx → Cell ny nx) (d : Cell ny nx → ℤ) (z ds : Cell ny nx → K) (nodata : K)
    (s : St K ny nx) : St K ny nx where
  slope c := if good d z nodata s c then drop d z nodata s c / s.dist c else s.slope c
  dist c := s.dist c + ds (s.p c)
  p c := par (s.p c)
  reps := s.reps + 1

/-- `DONE` (new_slopes.py:271): no cell was left (`nb == 0`), all IDs are zero, or `n_reps > 4 * nx`;
`s` and `s'` are the variables before and after the pass. -/
def done (d : Cell ny nx → ℤ) (z : Cell ny nx → K) (nodata : K) (s s' : St K ny nx) : Bool :=
  ((allCells ny nx).all fun c => good d z nodata s c) ||
  ((allCells ny nx).all fun c => (s'.p c).1.val * nx + (s'.p c).2.val = 0) ||
  decide (4 * nx < s'.reps)

/-- The `while` loop (new_slopes.py:218-271).  It ends because `n_reps` grows in every pass. -/
def loop (par : Cell ny nx → Cell ny nx) (d : Cell ny nx → ℤ) (z ds : Cell ny nx → K) (nodata : K)
    (s : St K ny nx) : St K ny nx :=
  if _h : done d z nodata s (pass par d z ds nodata s) = true then pass par d z ds nodata s
  else loop par d z ds nodata (pass par d z ds nodata s)
termination_by 4 * nx + 1 - s.reps
decreasing_by
  have h' : ¬ 4 * nx < s.reps + 1 := fun hlt => _h (by simp [done, pass, hlt])
  simp only [pass]
  omega

/-- `get_new_slope_grid` (new_slopes.py:174-315): the grid that is written.  `none` is an exception: of
`update_noflow_IDs`, called by `get_d8_object` (new_slopes.py:109), when every cell has a direction, or the
`ValueError` raised after the first pass when no slope is positive. -/
def newSlopeGrid (par : Cell ny nx → Cell ny nx) (d : Cell ny nx → ℤ) (z ds : Cell ny nx → K)
    (nodata : K) : Option (Cell ny nx → K) :=
  if noflowIDs d = none then none
  else if anyPositive (pass par d z ds nodata (init par ds)).slope then
    some (loop par d z ds nodata (init par ds)).slope
  else none

/-! ## Smoothing -/

/-- `z[pIDs] = (z + z[gpIDs]) / 2.0` (new_slopes.py:1180): the right hand side is computed for the whole
grid first; of several cells with the same parent the last one, in the order of the grid, counts. -/
def assignParents (par : Cell ny nx → Cell ny nx) (z : Cell ny nx → K) : Cell ny nx → K :=
  (allCells ny nx).foldl (fun acc c => Function.update acc (par c) ((z c + z (par (par c))) / 2)) z

/-- One step of `smooth_dem` (new_slopes.py:1170-1188): the cells whose parent ID or grandparent ID is
zero get their elevation of the DEM back. -/
def smoothStep (par : Cell ny nx → Cell ny nx) (dem z : Cell ny nx → K) (c : Cell ny nx) : K :=
  if (par c).1.val * nx + (par c).2.val = 0 ∨ (par (par c)).1.val * nx + (par (par c)).2.val = 0 then dem c
  else assignParents par z c

/-- `smooth_dem` (new_slopes.py:1131-1245): the grid that is written after `nsteps` steps.  `none` is the
exception of `update_noflow_IDs`, as in `newSlopeGrid`. -/
def smoothDem (par : Cell ny nx → Cell ny nx) (d : Cell ny nx → ℤ) (dem : Cell ny nx → K)
    (nsteps : ℕ) : Option (Cell ny nx → K) :=
  if noflowIDs d = none then none else some ((smoothStep par dem)^[nsteps] dem)

end NewSlope
