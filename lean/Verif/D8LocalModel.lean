import Verif.D8Model
import Mathlib.Data.List.Sort
import Mathlib.Data.List.Dedup

/-!
# Model of the local D8 component (`components/d8_local.py`)

IDs are calendar-style cell numbers `row * nx + col`, modelled as `Int`; `divmod` is floor
division.  Elevations live in a linearly ordered field as in `D8Model` (no NaN, no rounding).
Exceptions of numpy (ambiguous truth value of an array, index out of range, shapes that do not
broadcast, float arrays used as index) are modelled as `Except.error`.  Prints, `RT3_TEST` and
`PERTURB_TEST` (both set to False at d8_local.py:148-149) are not modelled.
-/

set_option autoImplicit false

namespace D8Local

open D8

/-! ## Neighbours of cells -/

/-- `np.unique` of a 1D array: sorted, each value once.
Used in the model of d8_local.py:234-369. -/
def npUnique (l : List ℤ) : List ℤ := (l.insertionSort (· ≤ ·)).dedup

/-- `zip(row_incs, col_incs)` (d8_local.py:174-175). -/
def incs9 : List (ℤ × ℤ) :=
  [(-1, -1), (-1, 0), (-1, 1), (0, -1), (0, 0), (0, 1), (1, -1), (1, 0), (1, 1)]

/-- `zip(row_incs_CW, col_incs_CW)` (d8_local.py:180-181). -/
def incs8 : List (ℤ × ℤ) :=
  [(-1, 1), (0, 1), (1, 1), (1, 0), (1, -1), (0, -1), (-1, -1), (-1, 0)]

/-- `w = np.where(p); if (w[0].size > 0): x = x[w]`: the array is only cut down when something
remains (d8_local.py:321-327, 518-527, 571-580). -/
def cutIfAny {α : Type*} (p : α → Bool) (l : List α) : List α :=
  if (l.filter p).length > 0 then l.filter p else l

/-- The pairs `(rows2, cols2)` before they are cut down (d8_local.py:255-325); a single ID takes
another path than several. -/
def shifted (nx : ℕ) (ids : List ℤ) : List (ℤ × ℤ) :=
  match ids with
  | [i] => incs9.map (fun d => (i / nx + d.1, i % nx + d.2))
  | _ => incs9.flatMap (fun d => ids.map (fun i => (i / nx + d.1, i % nx + d.2)))

/-- `get_neighbors` (d8_local.py:234-369). -/
def getNeighbors (ny nx : ℕ) (ids : List ℤ) (includeIDs : Bool) : List ℤ :=
  let rc := shifted nx ids
  let rc := cutIfAny (fun p => decide (p.1 > -1 ∧ p.1 < (ny : ℤ))) rc
  let rc := cutIfAny (fun p => decide (p.2 > -1 ∧ p.2 < (nx : ℤ))) rc
  let ids2 := rc.map (fun p : ℤ × ℤ => p.1 * (nx : ℤ) + p.2)
  if includeIDs then npUnique ids2
  else (npUnique ids2).filter (fun i => i ∉ ids)

section
variable {K : Type*} [LinearOrder K]

/-- `is_a_pit` (d8_local.py:373-380); `z` is `DEM.flat`. -/
def isAPit (ny nx : ℕ) (z : ℤ → K) (i : ℤ) : Bool :=
  ((getNeighbors ny nx [i] false).filter (fun j => decide (z j ≤ z i))).length = 0

/-- `is_an_interior_pit` (d8_local.py:384-397). -/
def isAnInteriorPit (ny nx : ℕ) (z : ℤ → K) (i : ℤ) : Bool :=
  if i / nx = 0 ∨ i / nx = (ny : ℤ) - 1 ∨ i % nx = 0 ∨ i % nx = (nx : ℤ) - 1 then false
  else ((getNeighbors ny nx [i] false).filter (fun j => decide (z j ≤ z i))).length = 0

end

/-- `w = np.where(incs != v); xs = xs[w]`: the indices come from the full list of nine
increments; `none` = IndexError, when `xs` was cut down before (d8_local.py:418-423). -/
def pickWhere (incs : List ℤ) (v : ℤ) (xs : List ℤ) : Option (List ℤ) :=
  ((List.range incs.length).filter (fun k => incs.getD k 0 ≠ v)).mapM (fun k => xs[k]?)

/-- One axis of `update_neighborhood_IDs`: `n` cells, position `p`, increments `incs`
(d8_local.py:416-423 for columns, 428-435 for rows). -/
def axisIDs (n : ℕ) (periodic : Bool) (incs : List ℤ) (p : ℤ) : Option (List ℤ) := do
  let xs := incs.map (fun d => (p + d) % n)
  if periodic then some xs
  else
    let xs ← if p = 0 then pickWhere incs (-1) xs else some xs
    if p = (n : ℤ) - 1 then pickWhere incs 1 xs else some xs

/-- `update_neighborhood_IDs` (d8_local.py:402-441): the value of `near_IDs`.
`rows * nx + cols` needs arrays of the same length (the lengths are 9, 6 or 4, never 1). -/
def nearIDs (ny nx : ℕ) (lr tb : Bool) (i : ℤ) : Except String (List ℤ) :=
  match axisIDs nx lr (incs9.map Prod.snd) (i % nx), axisIDs ny tb (incs9.map Prod.fst) (i / nx) with
  | some cols, some rows =>
    if rows.length = cols.length then .ok (List.zipWith (fun r c => r * nx + c) rows cols)
    else .error "ValueError: operands could not be broadcast together"
  | _, _ => .error "IndexError: index out of bounds"

/-- `self.d8_grid.flat[ ID_vals ]` for one value: negative indices count from the end,
`none` = IndexError.  Used in the model of d8_local.py:548-599. -/
def flatGet (ny nx : ℕ) (d8 : ℤ → ℤ) (j : ℤ) : Option ℤ :=
  if 0 ≤ j ∧ j < (ny * nx : ℕ) then some (d8 j)
  else if -(ny * nx : ℕ) ≤ j ∧ j < 0 then some (d8 (j + (ny * nx : ℕ)))
  else none

/-- `get_kid_IDs` (d8_local.py:548-599); `update_kid_IDs` (501-544) stores the same value in
`self.kid_IDs`.  `d8` is `d8_grid.flat`. -/
def getKidIDs (ny nx : ℕ) (d8 : ℤ → ℤ) (i : ℤ) : Except String (List ℤ) :=
  let l : List (ℤ × ℤ × ℤ) :=
    (incs8.zip [16, 32, 64, 128, 1, 2, 4, 8]).map (fun q => (i / nx + q.1.1, i % nx + q.1.2, q.2))
  let l := cutIfAny (fun p => decide (p.1 > -1 ∧ p.1 < (ny : ℤ))) l
  let l := cutIfAny (fun p => decide (p.2.1 > -1 ∧ p.2.1 < (nx : ℤ))) l
  if l.all (fun p => (flatGet ny nx d8 (p.1 * nx + p.2.1)).isSome) then
    .ok ((l.filter (fun p => decide (flatGet ny nx d8 (p.1 * nx + p.2.1) = some p.2.2))).map
      (fun p => p.1 * nx + p.2.1))
  else .error "IndexError: index out of bounds"

/-- `add_neighbors_to_IDs` (d8_local.py:603-627): always wraps around. -/
def addNeighborsToIDs (ny nx : ℕ) (ids : List ℤ) : List ℤ :=
  npUnique (ids ++ incs8.flatMap (fun d : ℤ × ℤ =>
    ids.map (fun i : ℤ => ((i / (nx : ℤ) + d.1) % (ny : ℤ)) * (nx : ℤ) + (i % (nx : ℤ) + d.2) % (nx : ℤ))))

/-! ## The flow grid of a subset of the cells -/
section
variable {K : Type*} [Field K] [LinearOrder K]
variable {ny nx : ℕ}

/-- What the component carries from one call to the next: the IDs to be updated (`None` at the
start, d8_local.py:155), the grid of flow codes, the parent IDs and whether codes changed. -/
structure LState (ny nx : ℕ) where
  ids : Option (List ℤ)
  d8 : Cell ny nx → ℤ
  parent : Cell ny nx → ℤ
  changed : Bool

/-- The cell is one of the `IDs`.  Used in the model of d8_local.py:770-1071. -/
def inIDs (ids : List ℤ) (c : Cell ny nx) : Bool := decide (flatID c ∈ ids)

/-- `start_new_d8_codes` for the cells in `IDs` (d8_local.py:770-1071): codes by steepest
descent, computed as in the global component (pixel sizes of row 0), written to the grid. -/
def startIDs (cfg : Config K) (z : Cell ny nx → K) (ids : List ℤ) (d : Cell ny nx → ℤ) :
    Cell ny nx → ℤ :=
  fun c => if inIDs ids c then startCode cfg z c else d c

/-- `break_flow_grid_ties` (d8_local.py:1093-1115). -/
def breakIDs (ids : List ℤ) (d : Cell ny nx → ℤ) : Cell ny nx → ℤ :=
  fun c => if inIDs ids c then D8.breakTies d c else d c

/-- The flats among the `IDs` (d8_local.py:1179-1181). -/
def isFlatIn (ids : List ℤ) (d : Cell ny nx → ℤ) (c : Cell ny nx) : Bool :=
  inIDs ids c && isFlat d c

/-- `FIXABLE` (d8_local.py:1218-1298, 1381). -/
def fixableIn (ids : List ℤ) (d : Cell ny nx → ℤ) (c : Cell ny nx) : Bool :=
  isFlatIn ids d c && decide (readyCode d c > 0)

/-- One pass of the loop in `link_flats` (d8_local.py:1176-1398): all codes are read before any
is written. -/
def linkPassIn (ids : List ℤ) (d : Cell ny nx → ℤ) (c : Cell ny nx) : ℤ :=
  if fixableIn ids d c then resolve (readyCode d c) else d c

/-- `n_flats`.  Used in the model of d8_local.py:1176-1458. -/
def nFlatsIn (ids : List ℤ) (d : Cell ny nx → ℤ) : ℕ :=
  (Finset.univ.filter (fun c => isFlatIn ids d c)).card
/-- `n_fixable`.  Used in the model of d8_local.py:1176-1458. -/
def nFixableIn (ids : List ℤ) (d : Cell ny nx → ℤ) : ℕ :=
  (Finset.univ.filter (fun c => fixableIn ids d c)).card

/-- `link_flats` (d8_local.py:1176-1458) with an iteration budget; when the loop ends without
`FINISHED` the negative codes of the `IDs` become 0. -/
def linkLoopIn (ids : List ℤ) : ℕ → (Cell ny nx → ℤ) → Option (Cell ny nx → ℤ)
  | 0, _ => none
  | fuel + 1, d =>
    if nFlatsIn ids d = 0 then some d
    else
      let d' := linkPassIn ids d
      if nFixableIn ids d = nFlatsIn ids d then some d'
      else if nFixableIn ids d = 0 then
        some (fun c => if inIDs ids c && decide (d' c < 0) then 0 else d' c)
      else linkLoopIn ids fuel d'

/-- All cell IDs, `np.ravel(ID_grid)` (d8_local.py:673, d8_base.py:609-620). -/
def allIDs (ny nx : ℕ) : List ℤ := (List.range (ny * nx)).map (fun i : ℕ => (i : ℤ))

/-- `update_flow_grid` (d8_local.py:631-722).  `self.IDs == None` compares an array element by
element, so with more than one ID the `if` raises (672); the same holds for `DEM == None` when a
grid is passed (818).  Outer `none`: `link_flats` has not stopped within `fuel` passes.  (For an
empty array of IDs older numpy versions only warn; modelled as the error.) -/
def updateFlowGridL (cfg : Config K) (fuel : ℕ) (z : Cell ny nx → K) (demGiven : Bool)
    (s : LState ny nx) : Option (Except String (LState ny nx)) :=
  let ids? : Except String (List ℤ) :=
    match s.ids with
    | none => .ok (allIDs ny nx)
    | some ids =>
      if ids.length = 1 then .ok (getNeighbors ny nx ids true)
      else .error "ValueError: truth value of an array is ambiguous"
  match ids? with
  | .error e => some (.error e)
  | .ok ids =>
    if demGiven && decide (ny * nx ≠ 1) then
      some (.error "ValueError: truth value of an array is ambiguous")
    else
      let d := startIDs cfg z ids s.d8
      let d := if cfg.breakTies then breakIDs ids d else d
      let d? := if cfg.linkFlats then linkLoopIn ids fuel d else some d
      d?.map (fun d => .ok
        { s with ids := some ids, d8 := d,
                 changed := decide (∃ c : Cell ny nx, inIDs ids c = true ∧ d c ≠ s.d8 c) })

/-- The IDs held in the state (`[]` before the first update).
Used in the model of d8_local.py:1485-1576. -/
def LState.idList (s : LState ny nx) : List ℤ := s.ids.getD []

/-- `update_parent_ID_grid` (d8_local.py:1485-1576).  `inc_map` has 129 entries
(d8_base.py:635); `R[w]` indexes a tuple with a tuple (1545, 1549, 1564, 1568). -/
def updateParents (lr tb : Bool) (s : LState ny nx) : Except String (LState ny nx) :=
  if s.changed = false then .ok s
  else
    let codeAt (p : Cell ny nx → Bool) (cs : List ℤ) : Prop :=
      ∃ c : Cell ny nx, inIDs s.idList c = true ∧ p c = true ∧ s.d8 c ∈ cs
    let onR : Cell ny nx → Bool := fun c => decide (c.2.val = nx - 1)
    let onL : Cell ny nx → Bool := fun c => decide (c.2.val = 0)
    let onT : Cell ny nx → Bool := fun c => decide (c.1.val = 0)
    let onB : Cell ny nx → Bool := fun c => decide (c.1.val = ny - 1)
    if ∃ c : Cell ny nx, inIDs s.idList c = true ∧ (s.d8 c < -129 ∨ s.d8 c > 128) then
      .error "IndexError: index out of bounds"
    else if lr = true ∧ (codeAt onR [1, 2, 4] ∨ codeAt onL [16, 32, 64]) then
      .error "TypeError: tuple indices must be integers or slices, not tuple"
    else if tb = true ∧ (codeAt onT [1, 64, 128] ∨ codeAt onB [4, 8, 16]) then
      .error "TypeError: tuple indices must be integers or slices, not tuple"
    else
      let p (c : Cell ny nx) : ℤ :=
        let p := flatID c + incMap nx (s.d8 c)
        let p := if s.d8 c ≤ 0 then 0 else p
        let p := if lr = false ∧ (onR c ∨ onL c) then 0 else p
        (if tb = false ∧ (onT c ∨ onB c) then 0 else p)
      .ok { s with parent := fun c => if inIDs s.idList c then p c else s.parent c }

/-- `update_flow_width_grid` and `update_flow_length_grid` (d8_local.py:1763-1854, 1858-1933):
`rows = (IDs / self.nx)` is a float array and cannot be used as an index, so any cell with one of
the eight codes or with code 0 makes them raise. -/
def updateWidths (s : LState ny nx) : Except String (LState ny nx) :=
  if s.changed = false then .ok s
  else if ∃ c : Cell ny nx, inIDs s.idList c = true ∧
      s.d8 c ∈ ([0, 1, 2, 4, 8, 16, 32, 64, 128] : List ℤ) then
    .error "IndexError: arrays used as indices must be of integer (or boolean) type"
  else .ok s

/-- `update_area_grid` (d8_local.py:1937-2471): `np = pIDs.size` (2019) makes `np` a local name
of the whole function, so the first use of numpy in it (2009 or 2114) raises. -/
def updateAreas (s : LState ny nx) : Except String (LState ny nx) :=
  if s.changed = false then .ok s
  else .error "UnboundLocalError: local variable 'np' referenced before assignment"

/-- `update` of the D8 component up to the area grid (d8_base.py:358-386).  `update_parent_IDs`,
`update_flow_from_IDs` and `update_flow_to_IDs` only read what is there. -/
def updateL (cfg : Config K) (fuel : ℕ) (z : Cell ny nx → K) (demGiven : Bool)
    (s : LState ny nx) : Option (Except String (LState ny nx)) :=
  (updateFlowGridL cfg fuel z demGiven s).map (fun r => do
    let s ← r
    let s ← updateParents cfg.lrPeriodic cfg.tbPeriodic s
    let s ← updateWidths s
    updateAreas s)

end
end D8Local
