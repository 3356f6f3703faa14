import Mathlib.Analysis.SpecialFunctions.Sqrt

/-!
# Sites next to the centers of clusters

Model of the search in `get_cluster_center_site_ids` of topoflow/utils/ngen/gages2B_utils.py for one cluster.  A site is
an ID with its three indicators, which are real numbers instead of float32; the centers are given.
-/

set_option autoImplicit false

namespace Center

/-- Snow fraction, aridity and seasonality.  gages2B_utils.py:500-503. -/
structure Ind where
  fs : ℝ
  phi : ℝ
  delta : ℝ

/-- The distance of a site from a center: `d1`, `d2`, `d3` are squares already, and are squared once more.
gages2B_utils.py:526-529. -/
noncomputable def dist (c x : Ind) : ℝ :=
  let d1 := (x.fs - c.fs) ^ 2
  let d2 := (x.phi - c.phi) ^ 2
  let d3 := (x.delta - c.delta) ^ 2
  Real.sqrt (d1 ^ 2 + d2 ^ 2 + d3 ^ 2)

open Classical in
/-- `np.argmin`: the first index of the smallest value, as the smaller of the first value and the smallest of the others.
Used in the model of gages2B_utils.py:566. -/
noncomputable def argmin : List ℝ → ℕ × ℝ
  | [] => (0, 0)
  | [d] => (0, d)
  | d :: e :: r => let m := argmin (e :: r); if d ≤ m.2 then (0, d) else (m.1 + 1, m.2)

/-- The search for one center.  The array of distances has `n` places, zero where no site has been read; a site beyond
its end and an index without site are errors.  gages2B_utils.py:464, 478-535, 565-567. -/
noncomputable def closest {I : Type} (n : ℕ) (c : Ind) (sites : List (I × Ind)) : Except String I :=
  if n < sites.length then .error "IndexError: index out of bounds"
  else if n = 0 then .error "ValueError: zero-size array"
  else
    match sites[(argmin (sites.map (fun s => dist c s.2) ++ List.replicate (n - sites.length) 0)).1]? with
    | some s => .ok s.1
    | none => .error "IndexError: list index out of range"

end Center
