import Mathlib.Algebra.Order.Field.Basic
import Mathlib.Data.Fintype.Prod
import Mathlib.Data.Fin.VecNotation
import Mathlib.Data.Fintype.Card
import Mathlib.Data.List.FinRange

/-!
# Model of the conflict spreading model (`topoflow/utils/conflict.py`)

A stochastic cellular automaton.  The random draws of every step are inputs of the model, so
that a theorem about all inputs holds for every outcome of the random generator.

Simplifications for the whole file:
* `float32` rounding is not modelled; numbers are elements of an ordered field;
* a Bernoulli draw with probability `p` is an arbitrary Boolean, except that `p = 0` always
  gives 0 and `p = 1` always gives 1; `numpy.random.binomial` raises `ValueError` if `p` is
  not in `[0, 1]`;
* the random permutation of IDs (`ran_IDs`) is an input; IDs are natural numbers (they are at
  most 10^7, so `float32` holds them exactly);
* reading the GeoTIFF files, the constant grids `C1` and `C2` (unused), the durations
  (unused), `USE_LOOP=True` (never passed) and the report on the screen are not modelled.
-/

set_option autoImplicit false

namespace Conflict

/-- A cell of the grid.
Used in the model of conflict.py:188-196. -/
abbrev Cell (ny nx : ℕ) := Fin ny × Fin nx

/-- The cells in row-major order, the order in which numpy enumerates a Boolean mask.
Used in the model of conflict.py:370-397. -/
def cells (ny nx : ℕ) : List (Cell ny nx) :=
  (List.finRange ny).flatMap (fun i => (List.finRange nx).map (fun j => (i, j)))

/-- The parameters that `initialize` sets (`utils/conflict.py` 132-186).  `u0` is the grid
read from `U_file`, or `none` for the uniform grid. -/
structure Params (ny nx : ℕ) (K : Type*) where
  u0 : Option (Cell ny nx → K)
  cEmerge : K
  cSpread : K
  pResolve : K
  /-- `spread_method == 1` -/
  spread : Bool
  ranIDs : List ℕ

variable {ny nx : ℕ} {K : Type*} [Field K] [LinearOrder K]

/-- `initialize_U` (`utils/conflict.py` 246-269): negative values of a file are set to 0, then
the four edges are set to 0. -/
def initU (P : Params ny nx K) (c : Cell ny nx) : K :=
  if c.1.val = 0 ∨ c.1.val + 1 = ny ∨ c.2.val = 0 ∨ c.2.val + 1 = nx then 0
  else match P.u0 with
    | some u => max (u c) 0
    | none => 1

/-- The state of the model (`utils/conflict.py` 188-196, 228-230). -/
structure State (ny nx : ℕ) where
  S : Cell ny nx → Bool
  IDs : Cell ny nx → ℕ
  startIndex : ℕ
  nConflict : ℤ
  timeIndex : ℕ

/-- `initialize` with `cfg_file=None` (`utils/conflict.py` 188-241). -/
def init : State ny nx where
  S := fun _ => false
  IDs := fun _ => 0
  startIndex := 0
  nConflict := 0
  timeIndex := 0

/-- `initialize` (`utils/conflict.py` 129-241): with a configuration file no parameter is set
(181-185), and line 191 uses `self.ny`. -/
def initWith (cfg : Option String) : Except String (State ny nx) :=
  match cfg with
  | none => .ok init
  | some _ => .error "AttributeError: 'conflict' object has no attribute 'ny'"

/-- The random draws of one step.
Used in the model of conflict.py:368-380, 913. -/
structure Draws (ny nx : ℕ) where
  b1 : Cell ny nx → Bool
  b2 : Cell ny nx → Bool
  b : Cell ny nx → Fin 8 → Bool

/-- One Bernoulli variable: `r` is what the generator would give for `0 < p < 1`.
Used in the model of conflict.py:368, 380, 913. -/
def bern (p : K) (r : Bool) : Bool := if p = 0 then false else if p = 1 then true else r

/-- The largest value of a list of nonnegative numbers (`numpy` `max`, `amax`).  The grid `U`
is never negative, so that 0 can be used as the start value.
Used in the model of conflict.py:338, 867. -/
def maxOf (l : List K) : K := l.foldr max 0

/-- Number of cells where a Boolean grid is true (`w.sum()`).
Used in the model of conflict.py:370, 382, 824, 916. -/
def count (w : Cell ny nx → Bool) : ℕ := (Finset.univ.filter (fun c => w c = true)).card

/-- `update_p` (`utils/conflict.py` 330-339). -/
def pEmerge (P : Params ny nx K) (c : Cell ny nx) : K :=
  P.cEmerge / maxOf ((cells ny nx).map (initU P)) * initU P c

/-- The eight neighbours, in the order of `get_neighbor_cols_and_rows`
(`utils/conflict.py` 761-790): (row offset, column offset). -/
def offset : Fin 8 → ℤ × ℤ :=
  ![(-1, -1), (-1, 0), (-1, 1), (0, -1), (0, 1), (1, -1), (1, 0), (1, 1)]

/-- Indexing an axis of length `n`: negative indices count from the end, others must be
smaller than `n`.
Used in the model of conflict.py:794-813. -/
def npIdx (n : ℕ) (i : ℤ) : Option (Fin n) :=
  if h : 0 ≤ i ∧ i < n then some ⟨i.toNat, by omega⟩
  else if h : i < 0 ∧ 0 ≤ i + n then some ⟨(i + n).toNat, by omega⟩
  else none

/-- The cell that numpy accesses for neighbour `k` (`utils/conflict.py` 794-813). -/
def nbr (c : Cell ny nx) (k : Fin 8) : Option (Cell ny nx) :=
  match npIdx ny (c.1.val + (offset k).1), npIdx nx (c.2.val + (offset k).2) with
  | some i, some j => some (i, j)
  | _, _ => none

/-- `nbr` where it is defined.
Used in the model of conflict.py:794-813. -/
def nb (c : Cell ny nx) (k : Fin 8) : Cell ny nx := (nbr c k).getD c

/-- The probability of spreading from `c` to its neighbour `k` (`utils/conflict.py` 848-864). -/
def pSpread (P : Params ny nx K) (c : Cell ny nx) (k : Fin 8) : K :=
  let un := fun k => initU P (nb c k)
  let unMax := maxOf ((List.finRange 8).map un)
  if unMax > 0 then P.cSpread * un k / unMax else 0

/-- The pairs (neighbour, ID) to which the conflicts spread, in the order of the mask
(`utils/conflict.py` 898-909). -/
def hits (P : Params ny nx K) (b : Cell ny nx → Fin 8 → Bool) (s : State ny nx) :
    List (Cell ny nx × ℕ) :=
  ((cells ny nx).filter (fun c => s.S c)).flatMap (fun c =>
    (List.finRange 8).filterMap (fun k =>
      if s.S (nb c k) = false ∧ bern (pSpread P c k) (b c k) = true
      then some (nb c k, s.IDs c) else none))

/-- `spread_conflicts1` without the loop (`utils/conflict.py` 818-937).  With repeated
indices the last assignment of an ID is the one that stays. -/
def spread (P : Params ny nx K) (b : Cell ny nx → Fin 8 → Bool) (s : State ny nx) :
    Except String (State ny nx) :=
  let w1 := (cells ny nx).filter (fun c => s.S c)
  let n1 := count s.S
  if n1 = 0 then .ok s
  else if w1.any (fun c => (List.finRange 8).any (fun k => (nbr c k).isNone)) = true then
    .error "IndexError"
  else if w1.any (fun c => (List.finRange 8).any (fun k =>
      decide (pSpread P c k < 0 ∨ 1 < pSpread P c k))) = true then
    .error "ValueError: p < 0, p > 1 or p is NaN"
  else
    let h := hits P b s
    let S' := fun e => if e ∈ h.map Prod.fst then true else s.S e
    .ok { s with
      S := S'
      IDs := h.foldl (fun ids e => Function.update ids e.1 e.2) s.IDs
      nConflict := s.nConflict + ((count S' : ℤ) - n1) }

/-- The position of a cell among the cells where the mask is true.
Used in the model of conflict.py:364-397. -/
def rank (w : Cell ny nx → Bool) (c : Cell ny nx) : ℕ :=
  ((cells ny nx).filter (fun e => w e)).idxOf c

/-- `update_S` up to the spreading (`utils/conflict.py` 364-397).  `ran_IDs[i:i+n2]` must
have `n2` elements; a single element would be broadcast. -/
def emergeResolve (P : Params ny nx K) (d : Draws ny nx) (s : State ny nx) :
    Except String (State ny nx) :=
  if maxOf ((cells ny nx).map (initU P)) = 0 then
    .error "ValueError: p < 0, p > 1 or p is NaN"
  else if (cells ny nx).any (fun c => decide (pEmerge P c < 0 ∨ 1 < pEmerge P c)) = true then
    .error "ValueError: p < 0, p > 1 or p is NaN"
  else if P.pResolve < 0 ∨ 1 < P.pResolve then
    .error "ValueError: p < 0, p > 1 or p is NaN"
  else
    let w2 := fun c => !s.S c && bern (pEmerge P c) (d.b1 c)
    let n2 := count w2
    let w3 := fun c => s.S c && bern P.pResolve (d.b2 c)
    let n3 := count w3
    let slice := (P.ranIDs.drop s.startIndex).take n2
    if slice.length ≠ n2 ∧ slice.length ≠ 1 then .error "ValueError: shape mismatch"
    else
      let S1 := fun c => if w2 c then true else s.S c
      let IDs1 := fun c => if w2 c then
          (if slice.length = n2 then slice.getD (rank w2 c) 0 else slice.getD 0 0)
        else s.IDs c
      .ok { s with
        S := fun c => if w3 c then false else S1 c
        IDs := fun c => if w3 c then 0 else IDs1 c
        startIndex := s.startIndex + n2
        nConflict := s.nConflict + n2 - n3 }

/-- `update` (`utils/conflict.py` 298-309, 342-433, 755-757). -/
def update (P : Params ny nx K) (d : Draws ny nx) (s : State ny nx) :
    Except String (State ny nx) :=
  match emergeResolve P d s with
  | .error e => .error e
  | .ok s1 =>
    match (if P.spread then spread P d.b s1 else .ok s1) with
    | .error e => .error e
    | .ok s2 => .ok { s2 with timeIndex := s2.timeIndex + 1 }

/-- The updates of `run_model` (`utils/conflict.py` 977-983), one for each element of the
list of draws. -/
def run (P : Params ny nx K) (s : State ny nx) : List (Draws ny nx) → Except String (State ny nx)
  | [] => .ok s
  | d :: ds =>
    match update P d s with
    | .error e => .error e
    | .ok s' => run P s' ds

/-- The fraction reported by `finalize` (`utils/conflict.py` 968-970). -/
def reportedFraction (s : State ny nx) : K := s.nConflict / (((nx : K) - 1) * ((ny : K) - 1))

end Conflict
