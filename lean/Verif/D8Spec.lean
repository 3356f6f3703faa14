import Mathlib.Data.Int.ModEq
import Mathlib.Logic.Relation
import Mathlib.Data.Fin.VecNotation
import Mathlib.Data.Fintype.Prod
import Mathlib.Algebra.BigOperators.Group.Finset.Basic

/-!
# Specification vocabulary for the D8 properties

Independent of the model: compass offsets, neighbourhood on a (wrapped) grid, the flow
relation induced by a grid of flow codes, borders, and the upstream set of a cell.
-/

namespace D8Spec

/-- Row and column offsets of the eight directions, in the order of the Jenson codes
`1, 2, 4, ..., 128` = NE, E, SE, S, SW, W, NW, N (rows increase downwards). -/
def offset : Fin 8 → ℤ × ℤ :=
  ![(-1, 1), (0, 1), (1, 1), (1, 0), (1, -1), (0, -1), (-1, -1), (-1, 0)]

/-- `e` is the neighbour of `c` in direction `k`; indices wrap around at the borders (for
interior cells this is the ordinary neighbour). -/
def IsNbr {ny nx : ℕ} (k : Fin 8) (c e : Fin ny × Fin nx) : Prop :=
  (e.1.val : ℤ) ≡ c.1.val + (offset k).1 [ZMOD ny] ∧
  (e.2.val : ℤ) ≡ c.2.val + (offset k).2 [ZMOD nx]

/-- `c` flows to `e` according to the grid of flow codes. -/
def FlowsTo {ny nx : ℕ} (codes : Fin ny × Fin nx → ℤ) (c e : Fin ny × Fin nx) : Prop :=
  ∃ k : Fin 8, codes c = 2 ^ k.val ∧ IsNbr k c e

/-- The cell is on the border of the grid. -/
def OnBorder {ny nx : ℕ} (c : Fin ny × Fin nx) : Prop :=
  c.1.val = 0 ∨ c.1.val + 1 = ny ∨ c.2.val = 0 ∨ c.2.val + 1 = nx

/-- Water entering at `c` eventually passes through `e`. -/
def Drains {ny nx : ℕ} (codes : Fin ny × Fin nx → ℤ) : (c e : Fin ny × Fin nx) → Prop :=
  Relation.ReflTransGen (FlowsTo codes)

/-- No flow path returns to its starting point. -/
def Acyclic {ny nx : ℕ} (codes : Fin ny × Fin nx → ℤ) : Prop :=
  ∀ c, ¬ Relation.TransGen (FlowsTo codes) c c

open Classical in
/-- Sum of the areas of all cells that drain through `c` (itself included). -/
noncomputable def upstreamArea {K : Type*} [AddCommMonoid K] {ny nx : ℕ}
    (area : Fin ny × Fin nx → K) (codes : Fin ny × Fin nx → ℤ) (c : Fin ny × Fin nx) : K :=
  ∑ e ∈ Finset.univ.filter (fun e => Drains codes e c), area e

end D8Spec
