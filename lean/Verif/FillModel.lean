import Mathlib.Order.Lattice
import Mathlib.Order.MinMax
import Mathlib.Logic.Function.Basic
import Mathlib.Data.List.Basic

/-!
# Model of depression filling (`topoflow/utils/fill_pits.py`)

Elevations are values of an arbitrary linear order `K` (any DEM number type).  Cells are named
by their flat ID `row * nx + col` as in the code (`DEM.flat[ID]`, `C[ID]`).
Not modelled: printing, timing, `time.sleep`; the `USE_MY_HEAP` branch (disabled by a constant,
fill_pits.py:387; the heap class itself is modelled in `HeapModel`); overflow of int32 IDs.
-/

namespace Fill

/-- The three values of the array `C` (fill_pits.py:419-421). -/
inductive Status | opened | closed | onHeap
  deriving DecidableEq

section generic
variable {K : Type*} [LinearOrder K]

/-- Tuple comparison `(z, ID) < (z', ID')` used by `heapq`.
Used in the model of fill_pits.py:521-523. -/
def pairLt (a b : K × ℕ) : Bool := a.1 < b.1 ∨ (a.1 = b.1 ∧ a.2 < b.2)

/-- The smallest pair of a list.  Used in the model of fill_pits.py:521-523. -/
def minPair (a : K × ℕ) (l : List (K × ℕ)) : K × ℕ :=
  l.foldl (fun m b => if pairLt b m then b else m) a

/-- `heapq.heappop` (fill_pits.py:521-523): remove and return the smallest pair.  The standard
library heap is represented by its contents (a list); `none` for an empty heap. -/
def popMin [DecidableEq K] : List (K × ℕ) → Option ((K × ℕ) × List (K × ℕ))
  | [] => none
  | a :: l => some (minPair a l, (a :: l).erase (minPair a l))

/-- State of the loop: `DEM`, `C`, `fast_heap`, `n_closed`, `n_raised`.
Used in the model of fill_pits.py:558-580. -/
structure St (K : Type*) where
  dem : ℕ → K
  st : ℕ → Status
  heap : List (K × ℕ)
  nClosed : ℕ
  nRaised : ℕ

/-- Body of `for ID in ID_vals` (fill_pits.py:558-580). -/
def processNbr (zmin : K) (s : St K) (v : ℕ) : St K :=
  let dem := if s.dem v < zmin then Function.update s.dem v zmin else s.dem
  { dem := dem
    st := Function.update s.st v .onHeap
    heap := (dem v, v) :: s.heap
    nClosed := s.nClosed
    nRaised := if s.dem v < zmin then s.nRaised + 1 else s.nRaised }

/-- One iteration of `while (n_heap > 0)` (fill_pits.py:501-585) after the pop: flag the cell
CLOSED, collect the neighbours that are OPEN *before* any of them is processed, process them in
order. -/
def visit (nbrs : ℕ → List ℕ) (zmin : K) (v : ℕ) (s : St K) : St K :=
  let s1 : St K := { s with st := Function.update s.st v .closed, nClosed := s.nClosed + 1 }
  let ids := (nbrs v).filter (fun u => s1.st u = .opened)
  ids.foldl (processNbr zmin) s1

/-- The `while` loop with an iteration budget; `none` = heap not empty when the budget is used
up.  Used in the model of fill_pits.py:358-604. -/
def loop (nbrs : ℕ → List ℕ) : ℕ → St K → Option (St K)
  | fuel, s =>
    match popMin s.heap with
    | none => some s
    | some ((zmin, v), rest) =>
      match fuel with
      | 0 => none
      | fuel + 1 => loop nbrs fuel (visit nbrs zmin v { s with heap := rest })

/-- State before the loop: `C[w] = CLOSED`, `n_closed = nw`, heap of `(DEM.flat[ID], ID)` for
the start IDs, `C[IDs] = ON_HEAP` (fill_pits.py:423-430, 473-481). -/
def initSt (z : ℕ → K) (marked : List ℕ) (nClosed : ℕ) (start : List ℕ) : St K :=
  { dem := z
    st := fun v => if v ∈ start then .onHeap else if v ∈ marked then .closed else .opened
    heap := start.map (fun v => (z v, v))
    nClosed := nClosed
    nRaised := 0 }

end generic

/-- `incs` (fill_pits.py:491). -/
def incs (nx : ℕ) : List ℤ :=
  [-(nx:ℤ) - 1, -(nx:ℤ), -(nx:ℤ) + 1, -1, 1, (nx:ℤ) - 1, nx, (nx:ℤ) + 1]

/-- `ID_vals = min_ID + incs`, restricted to `0 <= ID < n_pixels` (fill_pits.py:535-543). -/
def nbrIDs (ny nx : ℕ) (v : ℕ) : List ℕ :=
  (((incs nx).map (fun i => (v:ℤ) + i)).filter (fun i => 0 ≤ i ∧ i < ((nx * ny : ℕ) : ℤ))).map
    Int.toNat

section start
variable {K : Type*} [LinearOrder K]

/-- Top edge (fill_pits.py:246-250). -/
def topIDs (nx : ℕ) (nodata : K) (z : ℕ → K) : List ℕ :=
  (List.range nx).filter (fun c => nodata < z c)

/-- Left edge: positions `i` in `DEM[1:ny-1, 0]` with data, stored as `w2[0] * nx`
(fill_pits.py:255-259).  Position `i` is row `i + 1`, but the stored ID is that of row `i`. -/
def leftIDs (ny nx : ℕ) (nodata : K) (z : ℕ → K) : List ℕ :=
  ((List.range (ny - 2)).filter (fun i => nodata < z ((i + 1) * nx))).map (fun i => i * nx)

/-- Right edge, stored as `(w3[0] * nx) + (nx - 1)` (fill_pits.py:264-268). -/
def rightIDs (ny nx : ℕ) (nodata : K) (z : ℕ → K) : List ℕ :=
  ((List.range (ny - 2)).filter (fun i => nodata < z ((i + 1) * nx + (nx - 1)))).map
    (fun i => i * nx + (nx - 1))

/-- Bottom edge (fill_pits.py:273-277). -/
def bottomIDs (ny nx : ℕ) (nodata : K) (z : ℕ → K) : List ℕ :=
  ((List.range nx).filter (fun c => nodata < z ((ny - 1) * nx + c))).map
    (fun c => c + nx * (ny - 1))

/-- `zc[i, j]` with `zc = DEM[1:ny-1, 1:nx-1]`, indices taken modulo the shape of `zc`, as
`numpy.roll` does (fill_pits.py:294-302). -/
def zcRoll (ny nx : ℕ) (z : ℕ → K) (i j : ℕ) : K :=
  z ((i % (ny - 2) + 1) * nx + (j % (nx - 2) + 1))

/-- `zs`: the smallest of the eight rolled neighbours (fill_pits.py:304-310).  `i + (m - 1)`
stands for the index `i - 1` modulo the number `m` of interior rows (columns). -/
def zs (ny nx : ℕ) (z : ℕ → K) (i j : ℕ) : K :=
  let up := i + (ny - 2 - 1)
  let lf := j + (nx - 2 - 1)
  let f := zcRoll ny nx z
  min (min (min (min (min (min (min (f up (j+1)) (f i (j+1))) (f (i+1) (j+1))) (f (i+1) j))
    (f (i+1) lf)) (f i lf)) (f up lf)) (f up j)

/-- Interior start pixels (fill_pits.py:312-324). -/
def interiorIDs (ny nx : ℕ) (nodata closedBasin : K) (z : ℕ → K) : List ℕ :=
  (List.range (ny - 2)).flatMap fun i =>
    ((List.range (nx - 2)).filter (fun j =>
      zcRoll ny nx z i j = closedBasin ∨ (nodata < zcRoll ny nx z i j ∧ zs ny nx z i j ≤ nodata))).map
      (fun j => (i + 1) * nx + (j + 1))

/-- `get_start_pixels(DEM, nx, ny)` with its default arguments (fill_pits.py:178-350);
`nodata` is the default -9999 and `closedBasin` the default -32000.  `none` is the `ValueError`
raised when the IDs do not fit into the buffer of `500 * (nx + ny)` entries (line 227; the
slices of lines 258-323 are then shorter than the data assigned to them). -/
def startPixels (ny nx : ℕ) (nodata closedBasin : K) (z : ℕ → K) : Option (List ℕ) :=
  let l := topIDs nx nodata z ++ leftIDs ny nx nodata z ++ rightIDs ny nx nodata z ++
    bottomIDs ny nx nodata z ++ interiorIDs ny nx nodata closedBasin z
  if l.length ≤ 500 * (nx + ny) then some l else none

/-- `get_start_pixels(..., EDGES_ONLY=True)` (fill_pits.py:208-218). -/
def startEdgesOnly (ny nx : ℕ) : List ℕ :=
  let top := List.range nx
  let left := (List.range (ny - 2)).map (fun i => (1 + i) * nx)
  top ++ top.map (fun c => c + (ny - 1) * nx) ++ left ++ left.map (fun l => l + (nx - 1))

/-- `w = where(DEM <= nodata or not finite)`; `w = w[0]` keeps only the *row* indices, which
are then used as flat IDs in `C[w] = CLOSED` (fill_pits.py:424-428).  Row-major order. -/
def markedIDs (ny nx : ℕ) (nodata : K) (z : ℕ → K) : List ℕ :=
  ((List.range (ny * nx)).filter (fun v => z v ≤ nodata)).map (fun v => v / nx)

/-- Replace NaN/inf by the default nodata value, in place (fill_pits.py:237-240); non-finite
values are represented by `none`. -/
def clean (nodata0 : K) (raw : ℕ → Option K) : ℕ → K := fun v => (raw v).getD nodata0

/-- `fill_pits(DEM, DEM_type, nx, ny, nodata)` (fill_pits.py:358-604): `get_start_pixels` is
called with its own default nodata value `nodata0` (-9999), not with the argument `nodata`.
The outer `Option` is the exception of `get_start_pixels`, the inner one the iteration budget.
If some start ID or marked row index is out of range the code raises `IndexError`; the theorems
on `startPixels` show this does not happen for `startPixels`, and `C[w]` is in range when
`ny ≤ nx * ny`, i.e. `1 ≤ nx`. -/
def fillPits (ny nx : ℕ) (nodata0 closedBasin nodata : K) (raw : ℕ → Option K) (fuel : ℕ) :
    Option (Option (St K)) :=
  let z := clean nodata0 raw
  (startPixels ny nx nodata0 closedBasin z).map fun start =>
    let marked := markedIDs ny nx nodata z
    loop (nbrIDs ny nx) fuel (initSt z marked marked.length start)

end start
end Fill
