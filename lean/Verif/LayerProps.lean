import Verif.LayerModel
import Mathlib.Tactic.Ring
import Mathlib.Tactic.Linarith
import Mathlib.Algebra.BigOperators.Ring.Finset
import Mathlib.Algebra.BigOperators.Fin
import Mathlib.Algebra.Order.BigOperators.Group.Finset
import Mathlib.Data.List.GetD
import Mathlib.Tactic.NormNum

/-!
# Properties C242 and C243: soil layers, and the water stored in the soil
-/

set_option autoImplicit false

namespace Layer

open Finset

/-! ## Specification -/

/-- Node `k` (counted from the surface) lies in layer `j`: all nodes of the layers above come
before it, and it is among the nodes of layer `j`. -/
def InLayer (nz : List ℕ) (j k : ℕ) : Prop :=
  j < nz.length ∧ ∃ m < nz.getD j 0, k = (nz.take j).sum + m

/-- One entry per node: the entry of each layer, repeated for each of its nodes. -/
def perNode {α : Type} (nz : List ℕ) (xs : List α) : List α :=
  (List.zipWith List.replicate nz xs).flatten

/-- The water in the soil: over all nodes and cells, water content times thickness of the node
times area of the cell. -/
noncomputable def soilWater (nz ny nx : ℕ) (content : ℕ → ℕ → ℕ → ℝ) (thick : ℕ → ℝ)
    (area : ℕ → ℕ → ℝ) : ℝ :=
  ∑ k ∈ range nz, ∑ r ∈ range ny, ∑ c ∈ range nx, content k r c * thick k * area r c

/-- A number, not a grid. -/
def IsNumber (x : LayerValue) : Prop := ∃ a, x = .number a

/-- The configurations for which the component computes one profile for all cells: precipitation, snowmelt and
evapotranspiration are numbers, and so are all parameters in the first layer. -/
def OneProfile (P SM ET : LayerValue) (params : List (List LayerValue)) : Prop :=
  IsNumber P ∧ IsNumber SM ∧ IsNumber ET ∧ ∀ xs ∈ params, ∀ x, xs.head? = some x → IsNumber x

/-- A well-formed configuration: at least one layer, and one thickness for each. -/
def Geometry.WF (g : Geometry) : Prop := 0 < g.nz.length ∧ g.dz.length = g.nz.length

/-! ## Auxiliary lemmas -/

theorem isScalar_iff (x : LayerValue) : x.isScalar = true ↔ IsNumber x := by
  cases x with
  | number a => exact ⟨fun _ => ⟨a, rfl⟩, fun _ => rfl⟩
  | grid f => exact ⟨(fun h => by cases h), (fun ⟨a, h⟩ => by cases h)⟩

theorem allScalars_iff (P SM ET : LayerValue) (params : List (List LayerValue)) :
    allScalars P SM ET params = true ↔ OneProfile P SM ET params := by
  unfold allScalars OneProfile
  rw [Bool.and_eq_true, Bool.and_eq_true, Bool.and_eq_true, isScalar_iff, isScalar_iff, isScalar_iff,
    List.all_eq_true]
  have : (∀ xs ∈ params, (xs.getD 0 (.number 0)).isScalar = true) ↔
      ∀ xs ∈ params, ∀ x, xs.head? = some x → IsNumber x := by
    refine forall_congr' fun xs => forall_congr' fun _ => ?_
    rw [isScalar_iff]
    cases xs with
    | nil => simp [IsNumber]
    | cons x xs => simp
  rw [this]
  tauto

theorem take_succ_sum (l : List ℕ) (j : ℕ) : (l.take (j + 1)).sum = (l.take j).sum + l.getD j 0 := by
  induction l generalizing j with
  | nil => simp
  | cons a l ih =>
    cases j with
    | zero => simp
    | succ j => simp [ih, Nat.add_assoc]

theorem perNode_append {α : Type} (nz : List ℕ) (xs : List α) (d : α) (h : xs.length = nz.length) :
    perNode nz xs = (List.range nz.length).flatMap
      (fun j => List.replicate (nz.getD j 0) (xs.getD j d)) := by
  induction nz generalizing xs with
  | nil => simp [perNode]
  | cons n nz ih =>
    cases xs with
    | nil => simp at h
    | cons x xs =>
      have h' : xs.length = nz.length := by simpa using h
      have e := ih xs h'
      rw [List.length_cons, List.range_succ_eq_map]
      simp only [perNode, List.zipWith_cons_cons, List.flatten_cons, List.flatMap_cons,
        List.flatMap_map, List.getD_cons_zero] at e ⊢
      rw [e]
      simp

theorem foldl_append {α β : Type} (f : β → List α) (l : List β) (a : List α) :
    l.foldl (fun acc j => acc ++ f j) a = a ++ l.flatMap f := by
  induction l generalizing a with
  | nil => simp
  | cons b l ih => simp [ih, List.append_assoc]

theorem dzVector_eq (g : Geometry) (h : g.WF) : dzVector g = perNode g.nz g.dz := by
  obtain ⟨h0, hl⟩ := h
  rw [perNode_append g.nz g.dz 0 hl, dzVector,
    foldl_append (fun j => List.replicate (g.nz.getD j 0) (g.dz.getD j 0))]
  obtain ⟨n, hn⟩ : ∃ n, g.nz.length = n + 1 := ⟨g.nz.length - 1, by omega⟩
  rw [hn, List.range_eq_range', List.range'_succ]
  simp

theorem perNode_length {α : Type} (nz : List ℕ) (xs : List α) (h : xs.length = nz.length) :
    (perNode nz xs).length = nz.sum := by
  induction nz generalizing xs with
  | nil => simp [perNode]
  | cons n nz ih =>
    cases xs with
    | nil => simp at h
    | cons x xs =>
      have e := ih xs (by simpa using h)
      simp only [perNode] at e
      simp [perNode, e]

theorem perNode_getD {α : Type} (nz : List ℕ) (xs : List α) (d : α) (h : xs.length = nz.length)
    (j k : ℕ) (hk : InLayer nz j k) : (perNode nz xs).getD k d = xs.getD j d := by
  induction nz generalizing xs j k with
  | nil => exact absurd hk.1 (by simp)
  | cons n nz ih =>
    cases xs with
    | nil => simp at h
    | cons x xs =>
      obtain ⟨hj, m, hm, rfl⟩ := hk
      simp only [perNode, List.zipWith_cons_cons, List.flatten_cons]
      cases j with
      | zero =>
        simp at hm
        rw [List.getD_append _ _ _ _ (by simpa using hm)]
        simp only [List.take_zero, List.sum_nil, Nat.zero_add, List.getD_cons_zero]
        rw [List.getD_eq_getElem _ _ (by simpa using hm)]
        simp
      | succ j =>
        rw [List.getD_append_right _ _ _ _ (by simp; omega)]
        have := ih xs (by simpa using h) j ((nz.take j).sum + m)
          ⟨by simpa using hj, m, by simpa using hm, rfl⟩
        simp only [perNode] at this
        simp only [List.getD_cons_succ]
        rw [← this]
        congr 1
        simp
        omega

theorem exists_layer (nz : List ℕ) (k : ℕ) (hk : k < nz.sum) : ∃ j, InLayer nz j k := by
  induction nz generalizing k with
  | nil => simp at hk
  | cons n nz ih =>
    by_cases h : k < n
    · exact ⟨0, by simp, k, by simpa using h, by simp⟩
    · obtain ⟨j, hj, m, hm, e⟩ := ih (k - n) (by simp at hk; omega)
      exact ⟨j + 1, by simpa using hj, m, by simpa using hm, by simp; omega⟩

theorem inLayer_bounds (nz : List ℕ) (j k : ℕ) (h : InLayer nz j k) :
    (nz.take j).sum ≤ k ∧ k < (nz.take (j + 1)).sum := by
  obtain ⟨_, m, hm, rfl⟩ := h
  rw [take_succ_sum]
  omega

theorem take_sum_mono (nz : List ℕ) (i j : ℕ) (h : i ≤ j) : (nz.take i).sum ≤ (nz.take j).sum := by
  induction j with
  | zero => rw [Nat.le_zero.mp h]
  | succ j ih =>
    by_cases e : i = j + 1
    · rw [e]
    · have := ih (by omega)
      rw [take_succ_sum]
      omega

theorem layer_unique (nz : List ℕ) (i j k : ℕ) (hi : InLayer nz i k) (hj : InLayer nz j k) :
    i = j := by
  have a := inLayer_bounds nz i k hi
  have b := inLayer_bounds nz j k hj
  rcases Nat.lt_trichotomy i j with h | h | h
  · have := take_sum_mono nz (i + 1) j h
    omega
  · exact h
  · have := take_sum_mono nz (j + 1) i h
    omega

/-- What the loop over the first `n` layers leaves at a node of one of these layers. -/
theorem fold_assign (g : Geometry) (xs : List LayerValue) (n j k r c : ℕ) (hj : j < n)
    (hk : InLayer g.nz j k) :
    (List.range n).foldl
      (fun w j => assign (bounds g j) (bounds g (j + 1)) (xs.getD j (.number 0)) w)
      (fun _ _ _ => 0) k r c = (xs.getD j (.number 0)).cell r c := by
  have b := inLayer_bounds g.nz j k hk
  induction n with
  | zero => omega
  | succ n ih =>
    rw [List.range_succ, List.foldl_append]
    simp only [List.foldl_cons, List.foldl_nil]
    by_cases e : j = n
    · subst e
      exact if_pos b
    · have hlt : j < n := by omega
      have h2 := take_sum_mono g.nz (j + 1) n hlt
      rw [assign, if_neg (by simp only [bounds]; omega)]
      exact ih hlt

theorem nmax_ge (ny nx : ℕ) (xs : List LayerValue) (m : ℕ) :
    m ≤ xs.foldl (fun m x => max m (x.size ny nx)) m := by
  induction xs generalizing m with
  | nil => simp
  | cons x xs ih => exact le_trans (le_max_left _ _) (ih _)

theorem nmax_mem (ny nx : ℕ) (xs : List LayerValue) (m : ℕ) (x : LayerValue) (hx : x ∈ xs) :
    x.size ny nx ≤ xs.foldl (fun m x => max m (x.size ny nx)) m := by
  induction xs generalizing m with
  | nil => simp at hx
  | cons y xs ih =>
    rcases List.mem_cons.mp hx with rfl | h
    · exact le_trans (le_max_right _ _) (nmax_ge ny nx xs _)
    · exact ih _ h

/-! ## C242: every node has the parameters of its layer -/

/-- How the components read a soil variable at a node and a cell: a profile is used for all
cells, a cube cell by cell. -/
def Arr.at (a : Arr) (k r c : ℕ) : ℝ := if a.ndim = 1 then a.v 0 0 k else a.v k r c

/-- **C242.** For all layers, every node of the profile gets the value that is configured for
the layer in which it lies, in every cell, whether the values are numbers, grids or a mixture
of both. -/
theorem C242_value (ny nx : ℕ) (g : Geometry) (xs : List LayerValue)
    (hx : xs.length = g.nz.length) (j k r c : ℕ) (hk : InLayer g.nz j k) (hr : r < ny)
    (hc : c < nx) :
    (buildLayeredVar ny nx g xs).at k r c = (xs.getD j (.number 0)).cell r c := by
  have hj := hk.1
  have key := fun r c => fold_assign g xs g.nz.length j k r c hj hk
  unfold buildLayeredVar
  by_cases h : nmax ny nx xs = 1
  · rw [if_pos h]
    simp only [Arr.at, Arr.vec, if_true, fillLayers]
    rw [key 0 0]
    have hm : xs.getD j (.number 0) ∈ xs := by
      rw [List.getD_eq_getElem _ _ (by omega)]
      exact List.getElem_mem _
    have hs := nmax_mem ny nx xs 1 _ hm
    unfold nmax at h
    rw [h] at hs
    cases e : xs.getD j (.number 0) with
    | number a => rfl
    | grid f =>
      rw [e] at hs
      simp only [LayerValue.size] at hs
      have h1 : ny ≤ 1 := le_trans (Nat.le_mul_of_pos_right ny (by omega)) hs
      have h2 : nx ≤ 1 := le_trans (Nat.le_mul_of_pos_left nx (by omega)) hs
      have : r = 0 := by omega
      have : c = 0 := by omega
      subst r c
      rfl
  · rw [if_neg h]
    exact key r c

/-- **C242.** Every node lies in exactly one layer. -/
theorem C242_one_layer (g : Geometry) (k : ℕ) (hk : k < totalNz g) : ∃! j, InLayer g.nz j k := by
  obtain ⟨j, hj⟩ := exists_layer g.nz k hk
  exact ⟨j, hj, fun i hi => layer_unique g.nz i j k hi hj⟩

/-- The thickness of node `k`, however it is stored: one number for all nodes, or a vector. -/
def Arr.thick (a : Arr) (k : ℕ) : ℝ := if a.ndim = 0 then a.v 0 0 0 else a.v 0 0 k

/-- **C242.** The thickness of every node is the one of its layer. -/
theorem C242_thickness (g : Geometry) (h : g.WF) (j k : ℕ) (hk : InLayer g.nz j k) :
    (dzArr g).thick k = g.dz.getD j 0 := by
  have hj := hk.1
  unfold dzArr
  by_cases e : ∀ d ∈ g.dz, d = g.dz.getD 0 0
  · rw [if_pos e]
    simp only [Arr.thick, Arr.scalar, if_true]
    have hm : g.dz.getD j 0 ∈ g.dz := by
      rw [List.getD_eq_getElem _ _ (by rw [h.2]; exact hj)]
      exact List.getElem_mem _
    exact (e _ hm).symm
  · rw [if_neg e]
    change (dzVector g).getD k 0 = _
    rw [dzVector_eq g h]
    exact perNode_getD g.nz g.dz 0 h.2 j k hk

theorem perNode_take_sum (nz : List ℕ) (xs : List ℝ) (h : xs.length = nz.length) (j m : ℕ)
    (hj : j < nz.length) (hm : m ≤ nz.getD j 0) :
    ((perNode nz xs).take ((nz.take j).sum + m)).sum =
      ∑ i ∈ range j, (nz.getD i 0 : ℝ) * xs.getD i 0 + m * xs.getD j 0 := by
  induction nz generalizing xs j with
  | nil => simp at hj
  | cons n nz ih =>
    cases xs with
    | nil => simp at h
    | cons x xs =>
      simp only [perNode, List.zipWith_cons_cons, List.flatten_cons]
      cases j with
      | zero =>
        simp at hm
        rw [List.take_append_of_le_length (by simpa using hm)]
        simp [hm]
      | succ j =>
        have := ih xs (by simpa using h) j (by simpa using hj) (by simpa using hm)
        simp only [perNode] at this
        rw [List.take_append]
        simp only [List.length_replicate, List.take_succ_cons, List.sum_cons,
          List.getD_cons_succ]
        rw [show n + (nz.take j).sum + m - n = (nz.take j).sum + m by omega]
        rw [List.sum_append, this, Finset.sum_range_succ', List.take_of_length_le (by simp; omega)]
        simp
        ring

/-- **C242.** The depth that is stored for a node is the depth of its lower end: the thickness
of all layers above it and of the nodes of its own layer down to it. -/
theorem C242_depth (g : Geometry) (h : g.WF) (j m : ℕ) (hj : j < g.nz.length)
    (hm : m < g.nz.getD j 0) :
    zVector g ((g.nz.take j).sum + m) =
      ∑ i ∈ range j, (g.nz.getD i 0 : ℝ) * g.dz.getD i 0 + (m + 1) * g.dz.getD j 0 := by
  rw [zVector, dzVector_eq g h, Nat.add_assoc,
    perNode_take_sum g.nz g.dz h.2 j (m + 1) hj (by omega)]
  push_cast
  rfl

theorem getD_pos (l : List ℝ) (h : ∀ d ∈ l, 0 < d) (k : ℕ) (hk : k < l.length) :
    0 < l.getD k 0 := by
  rw [List.getD_eq_getElem _ _ hk]
  exact h _ (List.getElem_mem _)

/-- **C242.** Depths increase from node to node when all thicknesses are positive. -/
theorem C242_increasing (g : Geometry) (h : g.WF) (hpos : ∀ d ∈ g.dz, 0 < d) (k : ℕ)
    (hk : k + 1 < totalNz g) : zVector g k < zVector g (k + 1) := by
  obtain ⟨j, hj⟩ := exists_layer g.nz (k + 1) hk
  have hl : k + 1 < (dzVector g).length := by
    rw [dzVector_eq g h, perNode_length _ _ h.2]; exact hk
  have e := perNode_getD g.nz g.dz 0 h.2 j (k + 1) hj
  rw [← dzVector_eq g h, List.getD_eq_getElem _ _ hl] at e
  unfold zVector
  rw [List.take_add_one (i := k + 1), List.getElem?_eq_getElem hl, List.sum_append, e]
  have := getD_pos g.dz hpos j (by rw [h.2]; exact hj.1)
  simpa using this

/-- A configuration of the theorems: three layers, the middle one with a grid of values. -/
example : ∃ (g : Geometry) (xs : List LayerValue), g.WF ∧ xs.length = g.nz.length ∧
    InLayer g.nz 1 3 ∧ totalNz g = 9 ∧ (∀ d ∈ g.dz, 0 < d) ∧
    (buildLayeredVar 2 2 g xs).at 3 1 1 = 7 := by
  refine ⟨⟨[2, 3, 4], [1/10, 2/10, 5/10]⟩, [.number 1, .grid fun r c => r + 6 * c, .number 3],
    ⟨by simp, by simp⟩, by simp, ⟨by simp, 1, by simp, by simp⟩, by simp [totalNz], ?_, ?_⟩
  · intro d hd
    simp at hd
    rcases hd with rfl | rfl | rfl <;> norm_num
  · rw [C242_value 2 2 _ _ (by simp) 1 3 1 1 ⟨by simp, 1, by simp, by simp⟩ (by omega) (by omega)]
    simp [LayerValue.cell]
    norm_num

/-! ## C243: the water stored in the soil -/

theorem bdim_self (n : ℕ) : Arr.bdim n n = some n := by simp [Arr.bdim]

theorem bdim_one_left (n : ℕ) : Arr.bdim 1 n = some n := by
  unfold Arr.bdim
  by_cases h : 1 = n
  · simp [h]
  · simp [h]

theorem bdim_one_right (n : ℕ) : Arr.bdim n 1 = some n := by
  unfold Arr.bdim
  by_cases h : n = 1
  · simp [h]
  · simp [h]

theorem ix_one (i : ℕ) : Arr.ix 1 i = 0 := by simp [Arr.ix]

theorem ix_lt (n i : ℕ) (h : i < n) : Arr.ix n i = i := by
  unfold Arr.ix
  by_cases e : n = 1
  · rw [if_pos e]; omega
  · rw [if_neg e]

/-- The soil profile as the components hold it: the thickness of the nodes is one number, or a
vector with one entry per node. -/
structure Thickness (dz : Arr) (nz : ℕ) (thick : ℕ → ℝ) : Prop where
  shape : (∃ d, dz = .scalar d ∧ ∀ k < nz, thick k = d) ∨
    (∃ f, dz = .vec nz f ∧ ∀ k < nz, thick k = f k)

/-- `build_layer_z_vector` gives such an array. -/
theorem dzArr_thickness (g : Geometry) (h : g.WF) :
    Thickness (dzArr g) (totalNz g) (fun k => (perNode g.nz g.dz).getD k 0) := by
  have hv := dzVector_eq g h
  have hl : (dzVector g).length = totalNz g := by rw [hv, perNode_length _ _ h.2]; rfl
  refine ⟨?_⟩
  by_cases e : ∀ d ∈ g.dz, d = g.dz.getD 0 0
  · left
    refine ⟨g.dz.getD 0 0, by rw [dzArr, if_pos e], fun k hk => ?_⟩
    obtain ⟨j, hj⟩ := exists_layer g.nz k hk
    have := perNode_getD g.nz g.dz 0 h.2 j k hj
    rw [this]
    apply e
    rw [List.getD_eq_getElem _ _ (by rw [h.2]; exact hj.1)]
    exact List.getElem_mem _
  · right
    refine ⟨fun k => (dzVector g).getD k 0, by rw [dzArr, if_neg e, hl], fun k _ => ?_⟩
    simp only [hv]

theorem sum_cells (ny nx : ℕ) (a : ℝ) :
    ∑ _r ∈ range ny, ∑ _c ∈ range nx, a = a * ((nx * ny : ℕ) : ℝ) := by
  simp
  ring

/-- **C243, one profile for all cells, cells of fixed length.** The volume is the water of all
nodes of all cells. -/
theorem C243_one_profile_partial (nz ny nx : ℕ) (dz : Arr) (thick : ℕ → ℝ)
    (hd : Thickness dz nz thick) (q : ℕ → ℝ) (area : ℝ) :
    totalStorage true nz (nx * ny) (cellArea true ny nx fun _ _ => area) dz (.vec nz q) =
      .ok (soilWater nz ny nx (fun k _ _ => q k) thick (fun _ _ => area)) := by
  have tot : soilWater nz ny nx (fun k _ _ => q k) thick (fun _ _ => area) =
      (∑ k ∈ range nz, q k * (area * thick k)) * ((nx * ny : ℕ) : ℝ) := by
    unfold soilWater
    rw [Finset.sum_mul]
    refine Finset.sum_congr rfl fun k _ => ?_
    rw [sum_cells]
    ring
  rw [tot]
  rcases hd.shape with ⟨d, rfl, ht⟩ | ⟨f, rfl, ht⟩
  · simp only [totalStorage, cellArea, if_true, Arr.zip, Arr.scalar, Arr.vec, bdim_one_left,
      bdim_one_right, bind, Except.bind, pure, Except.pure, Arr.sum, Finset.sum_range_one]
    congr 2
    refine Finset.sum_congr rfl fun k hk => ?_
    rw [ht k (Finset.mem_range.mp hk), ix_lt nz k (Finset.mem_range.mp hk)]
  · simp only [totalStorage, cellArea, if_true, Arr.zip, Arr.scalar, Arr.vec, bdim_one_left,
      bdim_self, bind, Except.bind, pure, Except.pure, Arr.sum, Finset.sum_range_one]
    congr 2
    refine Finset.sum_congr rfl fun k hk => ?_
    have h := Finset.mem_range.mp hk
    rw [ht k h]
    simp only [ix_lt nz k h]

/-- **C243, a profile for each cell.** For cells of fixed length, and for cells of fixed angle
on grids with more than one cell, the volume is the water of all nodes of all cells. -/
theorem C243_cells_partial (nz ny nx : ℕ) (dz : Arr) (thick : ℕ → ℝ)
    (hd : Thickness dz nz thick) (q : ℕ → ℕ → ℕ → ℝ) (fixedLength : Bool) (area : ℕ → ℕ → ℝ)
    (hfix : fixedLength = true → ∀ r c, area r c = area 0 0)
    (hang : fixedLength = false → ny * nx ≠ 1) (n : ℕ) :
    totalStorage false nz n (cellArea fixedLength ny nx area) dz (.cube nz ny nx q) =
      .ok (soilWater nz ny nx q thick area) := by
  cases fixedLength with
  | true =>
    have ha := hfix rfl
    rcases hd.shape with ⟨d, rfl, ht⟩ | ⟨f, rfl, ht⟩
    · simp only [totalStorage, nodeVolumes, cellArea, if_true, Arr.zip, Arr.scalar, Arr.cube,
        Arr.size, bdim_self, bdim_one_right, bind, Except.bind, pure, Except.pure, Arr.sum,
        Nat.mul_one, if_false, Bool.false_eq_true, Nat.max_self, Nat.zero_ne_one, soilWater]
      congr 1
      refine Finset.sum_congr rfl fun k hk => Finset.sum_congr rfl fun r hr =>
        Finset.sum_congr rfl fun c hc => ?_
      rw [ix_lt nz k (mem_range.mp hk), ix_lt ny r (mem_range.mp hr),
        ix_lt nx c (mem_range.mp hc), ht k (mem_range.mp hk), ha r c]
      ring
    · simp only [totalStorage, nodeVolumes, cellArea, if_true, Arr.zip, Arr.scalar, Arr.cube,
        Arr.vec, Arr.size, bdim_self, bdim_one_right, bdim_one_left, bind, Except.bind, pure,
        Except.pure, Arr.sum, Nat.mul_one, if_false, Bool.false_eq_true, soilWater, Arr.asColumn,
        show max 0 1 = 1 from rfl]
      congr 1
      refine Finset.sum_congr rfl fun k hk => Finset.sum_congr rfl fun r hr =>
        Finset.sum_congr rfl fun c hc => ?_
      have h := mem_range.mp hk
      rw [ix_lt ny r (mem_range.mp hr), ix_lt nx c (mem_range.mp hc), ht k h, ha r c]
      simp only [ix_lt nz k h]
      ring
  | false =>
    have hs := hang rfl
    have hs' : 1 * ny * nx ≠ 1 := by rw [Nat.one_mul]; exact hs
    have vol : ∀ dz1 : Arr, (∃ f, dz1 = .vec nz f ∧ ∀ k < nz, thick k = f k) →
        ∀ V, (do
          let a ← (Arr.grid ny nx area).asSheet
          let b ← dz1.asColumn
          Arr.zip (· * ·) a b) = Except.ok V → V.ndim = 3 ∧
        (do let Vw ← Arr.zip (· * ·) (.cube nz ny nx q) V; return Vw.sum) =
          (.ok (soilWater nz ny nx q thick area) : Except String ℝ) := by
      rintro dz1 ⟨f, rfl, ht⟩ V hV
      simp only [Arr.asSheet, Arr.grid, Arr.asColumn, Arr.vec, if_true, bind, Except.bind,
        Arr.zip, bdim_one_left, bdim_one_right, Nat.max_self] at hV
      injection hV with hV
      subst hV
      refine ⟨rfl, ?_⟩
      simp only [Arr.zip, Arr.cube, bdim_self, bind, Except.bind, pure, Except.pure, Arr.sum,
        soilWater]
      congr 1
      refine Finset.sum_congr rfl fun k hk => Finset.sum_congr rfl fun r hr =>
        Finset.sum_congr rfl fun c hc => ?_
      have h := mem_range.mp hk
      rw [ht k h]
      simp only [ix_lt nz k h, ix_lt ny r (mem_range.mp hr), ix_lt nx c (mem_range.mp hc)]
      ring
    have ex : ∀ f, ∃ V, (do
          let a ← (Arr.grid ny nx area).asSheet
          let b ← (Arr.vec nz f).asColumn
          Arr.zip (· * ·) a b) = Except.ok V := by
      intro f
      simp only [Arr.asSheet, Arr.grid, Arr.asColumn, Arr.vec, if_true, bind, Except.bind,
        Arr.zip, bdim_one_left, bdim_one_right]
      exact ⟨_, rfl⟩
    have fin : ∀ dz1 : Arr, (∃ f, dz1 = .vec nz f ∧ ∀ k < nz, thick k = f k) →
        nodeVolumes nz (Arr.grid ny nx area) dz = (do
          let a ← (Arr.grid ny nx area).asSheet
          let b ← dz1.asColumn
          Arr.zip (· * ·) a b) →
        totalStorage false nz n (Arr.grid ny nx area) dz (.cube nz ny nx q) =
          .ok (soilWater nz ny nx q thick area) := by
      intro dz1 h1 h2
      obtain ⟨f, hf, _⟩ := id h1
      obtain ⟨V, hV⟩ := ex f
      rw [← hf] at hV
      obtain ⟨h3, h4⟩ := vol dz1 h1 V hV
      rw [hV] at h2
      unfold totalStorage
      rw [h2]
      simp only [Bool.false_eq_true, if_false, h3, bind, Except.bind] at h4 ⊢
      simpa using h4
    change totalStorage false nz n (Arr.grid ny nx area) dz (.cube nz ny nx q) = _
    rcases hd.shape with ⟨d, rfl, ht⟩ | ⟨f, rfl, ht⟩
    · refine fin (.vec nz fun _ => d) ⟨_, rfl, ht⟩ ?_
      unfold nodeVolumes
      rw [if_neg (by exact hs')]
      simp [Arr.scalar, Arr.size, Arr.zip, Arr.vec, bdim_one_left, bdim_self, bind, Except.bind]
    · by_cases h1 : nz = 1
      · subst h1
        refine fin (.vec 1 fun k => f (Arr.ix 1 k) * 1) ⟨_, rfl, fun k hk => ?_⟩ ?_
        · rw [ix_lt 1 k hk, ht k hk, mul_one]
        · unfold nodeVolumes
          rw [if_neg (by exact hs')]
          simp [Arr.size, Arr.zip, Arr.vec, bdim_self, bind, Except.bind]
      · refine fin (.vec nz f) ⟨_, rfl, ht⟩ ?_
        unfold nodeVolumes
        rw [if_neg (by exact hs')]
        simp [Arr.size, Arr.vec, h1, bind, Except.bind, pure, Except.pure]

/-- The configured water content of node `k` in a cell. -/
noncomputable def configured (g : Geometry) (qi : List LayerValue) (k r c : ℕ) : ℝ :=
  ((perNode g.nz qi).getD k (.number 0)).cell r c

/-- The configured thickness of node `k`. -/
noncomputable def configuredThickness (g : Geometry) (k : ℕ) : ℝ := (perNode g.nz g.dz).getD k 0

theorem layered_at (ny nx : ℕ) (g : Geometry) (qi : List LayerValue)
    (hq : qi.length = g.nz.length) (k r c : ℕ) (hk : k < totalNz g) (hr : r < ny) (hc : c < nx) :
    (buildLayeredVar ny nx g qi).at k r c = configured g qi k r c := by
  obtain ⟨j, hj⟩ := exists_layer g.nz k hk
  rw [C242_value ny nx g qi hq j k r c hj hr hc, configured,
    perNode_getD g.nz qi (.number 0) hq j k hj]

theorem soilWater_congr (nz ny nx : ℕ) (q q' : ℕ → ℕ → ℕ → ℝ) (t : ℕ → ℝ) (a : ℕ → ℕ → ℝ)
    (h : ∀ k < nz, ∀ r < ny, ∀ c < nx, q k r c = q' k r c) :
    soilWater nz ny nx q t a = soilWater nz ny nx q' t a := by
  refine Finset.sum_congr rfl fun k hk => Finset.sum_congr rfl fun r hr =>
    Finset.sum_congr rfl fun c hc => ?_
  rw [h k (mem_range.mp hk) r (mem_range.mp hr) c (mem_range.mp hc)]

theorem nmax_numbers (ny nx : ℕ) (qi : List LayerValue) (h : ∀ x ∈ qi, x.isScalar = true) :
    nmax ny nx qi = 1 := by
  unfold nmax
  induction qi with
  | nil => rfl
  | cons x qi ih =>
    have hx := h x (by simp)
    cases x with
    | number a =>
      simp only [List.foldl_cons, LayerValue.size, Nat.max_self]
      exact ih fun y hy => h y (by simp [hy])
    | grid f => simp [LayerValue.isScalar] at hx

/-- The content at the start when each cell has its profile. -/
theorem start_cells (ny nx : ℕ) (g : Geometry) (qi : List LayerValue)
    (hq : qi.length = g.nz.length) (hn : 0 < totalNz g) :
    ∃ q, startContent false (totalNz g) ny nx (buildLayeredVar ny nx g qi) =
        .ok (.cube (totalNz g) ny nx q) ∧
      ∀ k < totalNz g, ∀ r < ny, ∀ c < nx, q k r c = configured g qi k r c := by
  have key := layered_at ny nx g qi hq
  unfold startContent
  simp only [Bool.false_eq_true, if_false]
  by_cases h : nmax ny nx qi = 1
  · have e : buildLayeredVar ny nx g qi = .vec (totalNz g) (fun k => fillLayers g qi k 0 0) := by
      rw [buildLayeredVar, if_pos h]
    rw [e] at key ⊢
    rw [if_pos (by simp [Arr.size, Arr.vec])]
    simp only [Arr.asColumn, Arr.vec, if_true, bind, Except.bind, Arr.zip, Arr.cube, bdim_self,
      bdim_one_right, Nat.max_self]
    refine ⟨_, rfl, fun k hk r hr c hc => ?_⟩
    rw [← key k r c hk hr hc]
    simp only [ix_lt _ _ hk, Arr.at, Arr.vec, if_true]
  · have e : buildLayeredVar ny nx g qi = .cube (totalNz g) ny nx (fillLayers g qi) := by
      rw [buildLayeredVar, if_neg h]
    rw [e] at key ⊢
    have hne : (Arr.cube (totalNz g) ny nx (fillLayers g qi)).size ≠ totalNz g := by
      simp only [Arr.size, Arr.cube]
      intro h1
      rw [Nat.mul_assoc] at h1
      have h2 : ny * nx = 1 := Nat.eq_of_mul_eq_mul_left hn (by omega)
      apply h
      have hle : ∀ l : List LayerValue,
          l.foldl (fun m x => max m (LayerValue.size ny nx x)) 1 = 1 := by
        intro l
        induction l with
        | nil => rfl
        | cons x l ih =>
          have : x.size ny nx = 1 := by cases x <;> simp [LayerValue.size, h2]
          simp only [List.foldl_cons, this, Nat.max_self]
          exact ih
      exact hle qi
    rw [if_neg hne]
    simp only [Arr.zip, Arr.cube, bdim_self, Nat.max_self]
    refine ⟨_, rfl, fun k hk r hr c hc => ?_⟩
    rw [← key k r c hk hr hc]
    simp only [ix_lt _ _ hk, ix_lt _ _ hr, ix_lt _ _ hc, zero_add]
    rfl

/-- **C243, at the start, from the configuration.** The reported soil water is the sum over all
nodes and cells of the configured water content times thickness times cell area, provided that

* with one profile for all cells, the cells have fixed length and the water content is a number
  in all layers;
* with a profile for each cell, the cells have fixed length or there is more than one. -/
theorem C243_start_partial (fixedLength : Bool) (ny nx : ℕ) (area : ℕ → ℕ → ℝ) (g : Geometry)
    (h : g.WF) (hn : 0 < totalNz g) (P SM ET : LayerValue)
    (qi : List LayerValue) (others : List (List LayerValue)) (hq : qi.length = g.nz.length)
    (hfix : fixedLength = true → ∀ r c, area r c = area 0 0)
    (hsingle : OneProfile P SM ET (qi :: others) → fixedLength = true ∧ ∀ x ∈ qi, IsNumber x)
    (hcells : ¬ OneProfile P SM ET (qi :: others) → fixedLength = false → ny * nx ≠ 1) :
    startStorage fixedLength ny nx area g P SM ET qi others =
      .ok (soilWater (totalNz g) ny nx (configured g qi) (configuredThickness g) area) := by
  have ht := dzArr_thickness g h
  unfold startStorage
  dsimp only
  cases hs : allScalars P SM ET (qi :: others) with
  | true =>
    obtain ⟨rfl, hx⟩ := hsingle ((allScalars_iff ..).mp hs)
    replace hx := fun x h => (isScalar_iff x).mpr (hx x h)
    have ha := hfix rfl
    have e : buildLayeredVar ny nx g qi = .vec (totalNz g) (fun k => fillLayers g qi k 0 0) := by
      rw [buildLayeredVar, if_pos (nmax_numbers ny nx qi hx)]
    have key := layered_at ny nx g qi hq
    have hstart : startContent true (totalNz g) ny nx (buildLayeredVar ny nx g qi) =
        .ok (.vec (totalNz g) fun k => 0 + fillLayers g qi (Arr.ix (totalNz g) k) 0 0) := by
      rw [e]
      simp [startContent, Arr.zip, Arr.vec, bdim_self]
    have harea : area = fun _ _ => area 0 0 := by
      funext r c; exact ha r c
    rw [hstart]
    simp only [bind, Except.bind]
    have := C243_one_profile_partial (totalNz g) ny nx (dzArr g) _ ht
      (fun k => 0 + fillLayers g qi (Arr.ix (totalNz g) k) 0 0) (area 0 0)
    rw [← harea] at this
    rw [this]
    congr 1
    refine soilWater_congr _ _ _ _ _ _ _ fun k hk r hr c hc => ?_
    rw [← key k r c hk hr hc, e]
    simp only [ix_lt _ _ hk, zero_add, Arr.at, Arr.vec, if_true]
  | false =>
    obtain ⟨q, hq1, hq2⟩ := start_cells ny nx g qi hq hn
    rw [hq1]
    simp only [bind, Except.bind]
    rw [C243_cells_partial (totalNz g) ny nx (dzArr g) _ ht q fixedLength area hfix
      (hcells (fun h => by rw [(allScalars_iff ..).mpr h] at hs; cases hs))]
    congr 1
    exact soilWater_congr _ _ _ _ _ _ _ hq2

theorem bdim_none (m n : ℕ) (h : m ≠ n) (hm : m ≠ 1) (hn : n ≠ 1) : Arr.bdim m n = none := by
  simp [Arr.bdim, h, hm, hn]

/-- **C243 fails for one profile on a geographic grid.** With cells of fixed angle the
computation ends with an error, whatever the water content and the thicknesses, unless the
number of columns equals the number of nodes or one of them is one.  As the component computes
the volume when it starts, it does not start. -/
theorem C243_geographic_violated (nz ny nx n : ℕ) (dz : Arr) (thick : ℕ → ℝ)
    (hd : Thickness dz nz thick) (q : ℕ → ℝ) (area : ℕ → ℕ → ℝ) (h : nx ≠ nz) (h1 : nz ≠ 1)
    (h2 : nx ≠ 1) :
    totalStorage true nz n (cellArea false ny nx area) dz (.vec nz q) = .error "ValueError" := by
  rcases hd.shape with ⟨d, rfl, _⟩ | ⟨f, rfl, _⟩
  · simp [totalStorage, cellArea, Arr.zip, Arr.grid, Arr.scalar, Arr.vec, bdim_one_left,
      bdim_one_right, bdim_self, bind, Except.bind, bdim_none nz nx (Ne.symm h) h1 h2]
  · simp [totalStorage, cellArea, Arr.zip, Arr.grid, Arr.vec, bdim_one_right,
      bdim_self, bind, Except.bind, bdim_none nx nz h h2 h1]

/-- **C243 fails for one profile on a geographic grid (2).** When the number of columns equals
the number of nodes, the reported volume is too large by a factor of the number of rows. -/
theorem C243_geographic_factor_violated (nz ny : ℕ) (dz : Arr) (thick : ℕ → ℝ)
    (hd : Thickness dz nz thick) (q : ℕ → ℝ) (area : ℕ → ℝ) :
    totalStorage true nz (nz * ny) (cellArea false ny nz fun r _ => area r) dz (.vec nz q) =
      .ok (ny * soilWater nz ny nz (fun k _ _ => q k) thick (fun r _ => area r)) := by
  have tot : (ny : ℝ) * soilWater nz ny nz (fun k _ _ => q k) thick (fun r _ => area r) =
      (∑ r ∈ range ny, ∑ k ∈ range nz, q k * (area r * thick k)) * ((nz * ny : ℕ) : ℝ) := by
    unfold soilWater
    have h1 : ∀ k ∈ range nz, ∑ r ∈ range ny, ∑ _c ∈ range nz, q k * thick k * area r =
        ∑ r ∈ range ny, (nz : ℝ) * (q k * (area r * thick k)) := by
      intro k _
      refine Finset.sum_congr rfl fun r _ => ?_
      simp
      left
      ring
    rw [Finset.sum_congr rfl h1, Finset.sum_comm]
    simp only [← Finset.mul_sum]
    push_cast
    ring
  rw [tot]
  rcases hd.shape with ⟨d, rfl, ht⟩ | ⟨f, rfl, ht⟩
  · simp only [totalStorage, cellArea, if_true, Arr.zip, Arr.scalar, Arr.vec, Arr.grid,
      bdim_one_left, bdim_one_right, bdim_self, bind, Except.bind, pure, Except.pure, Arr.sum,
      Finset.sum_range_one, Bool.false_eq_true, if_false]
    congr 2
    refine Finset.sum_congr rfl fun r hr => Finset.sum_congr rfl fun k hk => ?_
    rw [ht k (mem_range.mp hk)]
    simp only [ix_lt nz k (mem_range.mp hk), ix_lt ny r (mem_range.mp hr)]
  · simp only [totalStorage, cellArea, if_true, Arr.zip, Arr.vec, Arr.grid,
      bdim_one_left, bdim_one_right, bdim_self, bind, Except.bind, pure, Except.pure, Arr.sum,
      Finset.sum_range_one, Bool.false_eq_true, if_false]
    congr 2
    refine Finset.sum_congr rfl fun r hr => Finset.sum_congr rfl fun k hk => ?_
    rw [ht k (mem_range.mp hk)]
    simp only [ix_lt nz k (mem_range.mp hk), ix_lt ny r (mem_range.mp hr)]

/-- **C243 fails for a deeper layer with a grid.** The choice of one profile looks at the first
layer only.  With a number for the water content in the first layer and a grid in another one,
the component takes one profile, and its start ends with an error unless the number of columns
equals the number of nodes or one of them is one. -/
theorem C243_deeper_grid_violated (fixedLength : Bool) (ny nx : ℕ) (area : ℕ → ℕ → ℝ)
    (g : Geometry) (P SM ET : LayerValue) (a : ℝ) (qi : List LayerValue)
    (others : List (List LayerValue)) (hs : OneProfile P SM ET ((.number a :: qi) :: others))
    (hgrid : ∃ x ∈ qi, ¬ IsNumber x) (hc : ny * nx ≠ 1) (hny : 0 < ny)
    (h : nx ≠ totalNz g) (h1 : totalNz g ≠ 1) (h2 : nx ≠ 1) (h0 : 0 < nx) :
    startStorage fixedLength ny nx area g P SM ET (.number a :: qi) others =
      .error "ValueError" := by
  have hm : nmax ny nx (.number a :: qi) ≠ 1 := by
    obtain ⟨x, hx, hx'⟩ := hgrid
    have hle := nmax_mem ny nx (.number a :: qi) 1 x (by simp [hx])
    cases x with
    | number b => exact absurd ⟨b, rfl⟩ hx'
    | grid f =>
      have h3 : (LayerValue.grid f).size ny nx = ny * nx := rfl
      rw [h3] at hle
      have h4 : 0 < ny * nx := Nat.mul_pos hny h0
      intro h5
      unfold nmax at h5
      rw [h5] at hle
      omega
  unfold startStorage
  rw [(allScalars_iff ..).mpr hs, buildLayeredVar, if_neg hm]
  simp only [startContent, if_true, Arr.zip, Arr.vec, Arr.cube, bdim_one_left,
    bdim_none _ _ (Ne.symm h) h1 h2, bind, Except.bind]

/-- **C243 fails for a single cell of fixed angle.** With a profile of its own and thicknesses
that differ, every node is multiplied by the thickness of every other one. -/
theorem C243_one_cell_violated (nz n : ℕ) (q : ℕ → ℕ → ℕ → ℝ) (f : ℕ → ℝ) (area : ℝ) :
    totalStorage false nz n (cellArea false 1 1 fun _ _ => area) (.vec nz f) (.cube nz 1 1 q) =
      .ok ((∑ k ∈ range nz, q k 0 0) * (∑ k ∈ range nz, f k) * area) := by
  simp only [totalStorage, nodeVolumes, cellArea, Arr.zip, Arr.vec, Arr.grid, Arr.cube, Arr.size,
    bdim_one_left, bdim_one_right, bdim_self, bind, Except.bind, pure, Except.pure, Arr.sum,
    Finset.sum_range_one, Bool.false_eq_true, if_false, Nat.mul_one, if_true,
    show max 2 1 = 2 from rfl, show ((2 : ℕ) = 1) = False by simp]
  congr 1
  rw [Finset.sum_mul_sum, Finset.sum_mul]
  refine Finset.sum_congr rfl fun k hk => ?_
  rw [Finset.sum_mul]
  refine Finset.sum_congr rfl fun l hl => ?_
  simp only [ix_lt nz k (mem_range.mp hk), ix_lt nz l (mem_range.mp hl), ix_one]
  ring

/-- A configuration that meets the hypotheses of `C243_start_partial`: two layers with two and
three nodes, one water content each, on a grid of two by two cells of 100 m2. -/
example : startStorage true 2 2 (fun _ _ => 100) ⟨[2, 3], [1/10, 1/5]⟩ (.number 0) (.number 0)
    (.number 0) [.number (1/10), .number (3/10)] [] = .ok 80 := by
  rw [C243_start_partial true 2 2 _ _ ⟨by simp, by simp⟩ (by simp [totalNz])
    _ _ _ _ _ (by simp) (fun _ _ _ => rfl) (fun _ => ⟨rfl, by simp [IsNumber]⟩)
    (by simp)]
  simp [soilWater, totalNz, configured, configuredThickness, perNode, Finset.sum_range_succ,
    LayerValue.cell, List.replicate]
  norm_num

/-- The hypotheses of the violations are met too: five nodes, and a grid of four by six cells. -/
example : ∃ (g : Geometry) (dz : Arr) (t : ℕ → ℝ), Thickness dz 5 t ∧ totalNz g = 5 ∧
    (6 : ℕ) ≠ totalNz g ∧ dz = dzArr g := by
  have h : Geometry.WF ⟨[2, 3], [1/10, 1/5]⟩ := ⟨by simp, by simp⟩
  exact ⟨⟨[2, 3], [1/10, 1/5]⟩, _, _, dzArr_thickness _ h, rfl, by simp [totalNz], rfl⟩

end Layer
