import Verif.GridInfoModel
import Mathlib.Tactic.Linarith
import Mathlib.Algebra.BigOperators.Group.List.Basic

/-!
# Properties of values and grid information
-/

set_option autoImplicit false

namespace BMIGrid

/-! ## Specification -/

/-- numpy's broadcasting rule for assignment, stated on shapes: up to leading ones, the source has no
more dimensions than the destination, and counted from the last, each source dimension is 1 or the
one of the destination. -/
def Broadcasts (s d : List ℕ) : Prop :=
  ∃ k s', s = List.replicate k 1 ++ s' ∧ s'.length ≤ d.length ∧
    ∀ j (_ : j < s'.reverse.length) (_ : j < d.reverse.length),
      s'.reverse[j] = 1 ∨ s'.reverse[j] = d.reverse[j]

/-- Two arrays have the same shape and the same values. -/
def Same {K : Type*} (a b : Nd K) : Prop :=
  a.shape = b.shape ∧ ∀ i : List ℕ, i.length = a.shape.length →
    (∀ k (h : k < i.length) (h' : k < a.shape.length), i[k] < a.shape[k]) → a.at_ i = b.at_ i

/-! ## Auxiliary facts -/

theorem stripOnes_le {s : List ℕ} {r : ℕ} (h : s.length ≤ r) : stripOnes s r = s := by
  cases s with
  | nil => rfl
  | cons n s =>
    unfold stripOnes
    rw [if_neg]
    rintro ⟨h1, _⟩
    omega

theorem fitsRev_iff (s d : List ℕ) : fitsRev s d = true ↔
    s.length ≤ d.length ∧ ∀ k (h : k < s.length) (h' : k < d.length), s[k] = 1 ∨ s[k] = d[k] := by
  induction s generalizing d with
  | nil => simp [fitsRev]
  | cons n s ih =>
    cases d with
    | nil => simp [fitsRev]
    | cons m d =>
      simp only [fitsRev, Bool.and_eq_true, Bool.or_eq_true, beq_iff_eq, ih, List.length_cons]
      constructor
      · rintro ⟨h1, h2, h3⟩
        refine ⟨by omega, fun k h h' => ?_⟩
        cases k with
        | zero => exact h1
        | succ k => exact h3 k (by omega) (by omega)
      · rintro ⟨h1, h2⟩
        refine ⟨h2 0 (by omega) (by omega), by omega, fun k h h' => ?_⟩
        exact h2 (k + 1) (by omega) (by omega)

theorem stripOnes_eq (s : List ℕ) (r : ℕ) :
    ∃ k, s = List.replicate k 1 ++ stripOnes s r := by
  induction s with
  | nil => exact ⟨0, rfl⟩
  | cons n s ih =>
    unfold stripOnes
    split_ifs with h
    · obtain ⟨k, hk⟩ := ih
      refine ⟨k + 1, ?_⟩
      rw [List.replicate_succ, List.cons_append, ← hk, h.2]
    · exact ⟨0, rfl⟩

theorem fits_iff (s d : List ℕ) : fits s d = true ↔ Broadcasts s d := by
  unfold fits
  constructor
  · intro h
    obtain ⟨h1, h2⟩ := (fitsRev_iff _ _).1 h
    obtain ⟨k, hk⟩ := stripOnes_eq s d.length
    exact ⟨k, _, hk, by simpa using h1, h2⟩
  · rintro ⟨k, s', rfl, hl, hm⟩
    induction k with
    | zero =>
      rw [List.replicate_zero, List.nil_append, stripOnes_le hl, fitsRev_iff]
      exact ⟨by simpa using hl, hm⟩
    | succ k ih =>
      rw [List.replicate_succ, List.cons_append]
      unfold stripOnes
      split_ifs with h
      · exact ih
      · rw [fitsRev_iff]
        rw [← List.cons_append, ← List.replicate_succ]
        refine ⟨?_, fun j h1 h2 => ?_⟩
        · simp only [List.length_reverse, List.length_append, List.length_replicate,
            List.length_cons, and_true] at h ⊢
          omega
        · by_cases hj : j < s'.reverse.length
          · have := hm j hj h2
            simp only [List.reverse_append, List.getElem_append_left hj]
            exact this
          · left
            push Not at hj
            simp only [List.reverse_append, List.getElem_append_right hj, List.reverse_replicate,
              List.getElem_replicate]

theorem fits_self (s : List ℕ) : fits s s = true := by
  unfold fits
  rw [stripOnes_le le_rfl, fitsRev_iff]
  exact ⟨le_rfl, fun _ _ _ => Or.inr rfl⟩

theorem fits_nil (d : List ℕ) : fits [] d = true := by
  simp [fits, stripOnes, fitsRev]

theorem srcRev_self (s i : List ℕ) (hl : i.length = s.length)
    (hb : ∀ k (h : k < i.length) (h' : k < s.length), i[k] < s[k]) : srcRev s i = i := by
  induction s generalizing i with
  | nil => simp at hl; simp [srcRev, hl]
  | cons n s ih =>
    cases i with
    | nil => simp at hl
    | cons a i =>
      have h0 := hb 0 (by simp) (by simp)
      simp only [List.getElem_cons_zero] at h0
      have : srcRev s i = i := by
        refine ih i (by simpa using hl) (fun k h h' => ?_)
        have := hb (k + 1) (by simp; omega) (by simp; omega)
        simpa using this
      simp only [srcRev, this]
      congr 1
      split_ifs with h1
      · omega
      · rfl

theorem src_self (s i : List ℕ) (hl : i.length = s.length)
    (hb : ∀ k (h : k < i.length) (h' : k < s.length), i[k] < s[k]) : src s i = i := by
  unfold src
  rw [srcRev_self, List.reverse_reverse]
  · simpa using hl
  · intro k h h'
    simp only [List.getElem_reverse]
    simp only [List.length_reverse] at h h'
    have := hb (i.length - 1 - k) (by omega) (by omega)
    simpa [hl] using this

/-! ## C115: reading a value into a destination -/

section
variable {K : Type*} [Zero K]

/-- **C115 (outcome).** For every variable that a component has, and every destination: the call
succeeds exactly when the destination has at least one dimension and the value can be broadcast to
it, and then the destination holds the value and never the announced zeros. -/
theorem C115_get_value_iff (o : Comp K) (long n : String) (a : Attr K) (dest d : Nd K)
    (h1 : o.nameOf long = some n) (h2 : o.attr n = some a) :
    getValue o long dest = .ok d ↔
      dest.shape ≠ [] ∧ Broadcasts a.toNd.shape dest.shape ∧ d.shape = dest.shape ∧
      d.at_ = fun i => a.toNd.at_ (src a.toNd.shape i) := by
  rw [← fits_iff]
  unfold getValue
  simp only [h1, h2]
  have hd : ∀ f : List ℕ → K, ({ dest with at_ := f } = d) ↔ d.shape = dest.shape ∧ d.at_ = f := by
    intro f
    cases d
    constructor
    · intro h; cases h; exact ⟨rfl, rfl⟩
    · rintro ⟨h, h'⟩
      simp only at h h'
      subst h; subst h'; rfl
  by_cases hs : dest.shape = []
  · have : assign dest a.toNd = .error "IndexError" := by unfold assign; rw [if_pos hs]
    rw [this]
    simp only [hs, ne_eq, not_true_eq_false, false_and, iff_false]
    cases a with
    | arr v => simp [zeros, assign, hs]
    | num x => simp [zeros]
  · by_cases hf : fits a.toNd.shape dest.shape = true
    · have : assign dest a.toNd = .ok { dest with at_ := fun i => a.toNd.at_ (src a.toNd.shape i) } := by
        unfold assign; rw [if_neg hs, if_pos hf]
      rw [this]
      simp only [Except.ok.injEq, hd]
      simp [hs, hf]
    · have : assign dest a.toNd = .error "ValueError" := by
        unfold assign; rw [if_neg hs, if_neg hf]
      rw [this]
      simp only [hf, Bool.false_eq_true, false_and, and_false, iff_false]
      cases a with
      | arr v =>
        have hf' : ¬ fits v.shape dest.shape = true := hf
        simp [zeros, assign, hs, hf']
      | num x => simp [zeros]

/-- **C115 (same shape, part).** A destination of the variable's own shape (with at least one
dimension) receives the values. -/
theorem C115_same_shape_partial (o : Comp K) (long n : String) (v dest : Nd K)
    (h1 : o.nameOf long = some n) (h2 : o.attr n = some (.arr v)) (hs : dest.shape = v.shape)
    (hr : v.shape ≠ []) : ∃ d, getValue o long dest = .ok d ∧ Same d v := by
  refine ⟨{ dest with at_ := fun i => v.at_ (src v.shape i) },
    (C115_get_value_iff o long n (.arr v) dest _ h1 h2).2
      ⟨by rw [hs]; exact hr, by rw [hs]; exact (fits_iff _ _).1 (fits_self _), rfl, rfl⟩, hs, ?_⟩
  intro i hl hb
  show v.at_ (src v.shape i) = v.at_ i
  rw [src_self]
  · rw [hl]; show dest.shape.length = _; rw [hs]
  · intro k h h'
    have := hb k h (by show k < dest.shape.length; rw [hs]; exact h')
    simp only [hs] at this
    exact this

/-- **C115 (scalars, part).** A scalar, or a plain number, fills any destination with at least one
dimension. -/
theorem C115_scalar_partial (o : Comp K) (long n : String) (a : Attr K) (dest : Nd K)
    (h1 : o.nameOf long = some n) (h2 : o.attr n = some a) (hs : a.toNd.shape = [])
    (hd : dest.shape ≠ []) :
    ∃ d, getValue o long dest = .ok d ∧ d.shape = dest.shape ∧ ∀ i, d.at_ i = a.toNd.at_ [] := by
  refine ⟨{ dest with at_ := fun i => a.toNd.at_ (src a.toNd.shape i) },
    (C115_get_value_iff o long n a dest _ h1 h2).2 ⟨hd, by rw [hs]; exact (fits_iff _ _).1 (fits_nil _), rfl, rfl⟩,
    rfl, fun i => ?_⟩
  show a.toNd.at_ (src a.toNd.shape i) = _
  rw [hs]
  rfl

/-- **C115 (violated).** The destination that the BMI standard prescribes, a flat array with one
element per cell, raises `ValueError` for every grid with more than one row: whatever the values,
the shapes and the destination's length. -/
theorem C115_flat_destination_violated (o : Comp K) (long n : String) (v dest : Nd K) (ny nx len : ℕ)
    (h1 : o.nameOf long = some n) (h2 : o.attr n = some (.arr v)) (hv : v.shape = [ny, nx])
    (hny : ny ≠ 1) (hd : dest.shape = [len]) : getValue o long dest = .error "ValueError" := by
  have hf : fits v.shape dest.shape = false := by
    rw [hv, hd]
    simp [fits, stripOnes, hny, fitsRev]
  have : assign dest v = .error "ValueError" := by
    unfold assign; rw [hd, if_neg (by simp), ← hd, hf]; simp
  unfold getValue
  simp only [h1, h2, Attr.toNd, this]
  simp only [zeros, assign, hf]
  rw [hd]
  simp

/-- **C115 (violated).** A scalar cannot be read into a scalar. -/
theorem C115_scalar_destination_violated (o : Comp K) (long n : String) (v dest : Nd K)
    (h1 : o.nameOf long = some n) (h2 : o.attr n = some (.arr v)) (hd : dest.shape = []) :
    getValue o long dest = .error "IndexError" := by
  unfold getValue
  simp [h1, h2, zeros, assign, hd]

/-- **C115 (missing).** A declared variable that the component does not have raises `TypeError`
instead of giving the announced zeros. -/
theorem C115_missing (o : Comp K) (long n : String) (dest : Nd K)
    (h1 : o.nameOf long = some n) (h2 : o.attr n = none) :
    getValue o long dest = .error "TypeError" := by
  unfold getValue
  simp [h1, h2, zeros]

end

/-- A component with a 2×3 grid. -/
def demo : Comp ℤ where
  nameOf := fun s => if s = "land_surface__elevation" then some "DEM" else none
  attr := fun s => if s = "DEM" then
    some (.arr ⟨[2, 3], fun i => match i with | [r, c] => 10 * r + c | _ => 0⟩) else none

example : ∃ d, getValue demo "land_surface__elevation" ⟨[2, 3], fun _ => 7⟩ = .ok d ∧
    d.at_ [1, 2] = 12 := by
  obtain ⟨d, h, hs⟩ := C115_same_shape_partial demo "land_surface__elevation" "DEM"
    ⟨[2, 3], fun i => match i with | [r, c] => 10 * r + c | _ => 0⟩ ⟨[2, 3], fun _ => 7⟩
    rfl rfl rfl (by simp)
  refine ⟨d, h, ?_⟩
  have hsh : d.shape = [2, 3] := hs.1
  rw [hs.2 [1, 2] (by rw [hsh]; rfl)]
  · rfl
  · intro k h h'
    simp only [hsh]
    have : k = 0 ∨ k = 1 := by simp at h; omega
    rcases this with rfl | rfl <;> simp

/-! ## C116: the grid of a variable -/

section
variable {K : Type*}

theorem assign_pair {α : Type*} (b : Nd α) (x y : α) (h : b.shape = [2]) :
    assign b (pair x y) = .ok { b with at_ := fun i => (pair x y).at_ (src [2] i) } := by
  unfold assign
  have hf : fits (pair x y).shape b.shape = true := by rw [h]; exact fits_self [2]
  rw [if_neg (by rw [h]; simp), if_pos hf]
  rfl

/-- **C116 (grid, part).** For the grid of the DEM the size is the product of the shape, the rank is
its length, and shape, spacing and origin are given in the order y, x. -/
theorem C116_grid_zero_partial (i : Info K) (bs : Nd ℕ) (b : Nd K) (hs : bs.shape = [2])
    (hb : b.shape = [2]) :
    ∃ s d p, gridShape i (some 0) bs = .ok s ∧ gridSpacing i (some 0) b = .ok d ∧
      gridOrigin i (some 0) b = .ok p ∧
      s.shape = [gridRank (some 0)] ∧ gridSize i (some 0) = s.at_ [0] * s.at_ [1] ∧
      s.at_ [0] = i.ny ∧ s.at_ [1] = i.nx ∧ d.at_ [0] = i.yres ∧ d.at_ [1] = i.xres ∧
      p.at_ [0] = i.ySouth ∧ p.at_ [1] = i.xWest := by
  refine ⟨{ bs with at_ := fun j => (pair i.ny i.nx).at_ (src [2] j) },
    { b with at_ := fun j => (pair i.yres i.xres).at_ (src [2] j) },
    { b with at_ := fun j => (pair i.ySouth i.xWest).at_ (src [2] j) }, ?_, ?_, ?_, ?_⟩
  · unfold gridShape; rw [if_pos rfl, assign_pair _ _ _ hs]
  · unfold gridSpacing; rw [if_pos rfl, assign_pair _ _ _ hb]
  · unfold gridOrigin; rw [if_pos rfl, assign_pair _ _ _ hb]
  · refine ⟨hs, ?_, rfl, rfl, rfl, rfl, rfl, rfl⟩
    unfold gridSize
    rw [if_pos rfl]
    rfl

/-- **C116 (the type of grid 0).** It is a uniform grid exactly for fixed-length pixels; every other grid is
a scalar. -/
theorem C116_grid_type_partial (i : Info K) (g : GridId) :
    (gridType i g = "uniform_rectilinear" ↔ g = some 0 ∧ i.pixelGeom = 1) ∧
    (gridType i g = "structured_quadrilateral" ↔ g = some 0 ∧ i.pixelGeom ≠ 1) ∧
    (gridType i g = "scalar" ↔ g ≠ some 0) ∧ (g = some 0 ↔ gridRank g = 2) := by
  unfold gridType gridRank
  by_cases h : g = some 0 <;> by_cases h1 : i.pixelGeom = 1 <;> simp [h, h1]

/-- **C116 (violated).** The grid that a component reports for a variable describes a scalar, whatever
the variable: for every variable with more than one element the size is wrong, and for every
variable that is not a scalar the rank is wrong. -/
theorem C116_variable_grid_violated (i : Info K) (o : Comp K) (long n : String) (v : Nd K)
    (_h1 : o.nameOf long = some n) (_h2 : o.attr n = some (.arr v)) :
    (gridSize i (getVarGrid long) = v.shape.prod ↔ v.shape.prod = 1) ∧
    (gridRank (getVarGrid long) = v.shape.length ↔ v.shape = []) ∧
    gridType i (getVarGrid long) = "scalar" := by
  refine ⟨?_, ?_, rfl⟩
  · show 1 = _ ↔ _
    exact eq_comm
  · show 0 = _ ↔ _
    rw [eq_comm]
    exact List.length_eq_zero_iff

/-- **C116 (violated).** For a scalar the shape, spacing and origin arrays are returned as they
were passed, whatever they hold. -/
theorem C116_scalar_untouched (i : Info K) (g : GridId) (hg : g ≠ some 0) (bs : Nd ℕ) (b : Nd K) :
    gridShape i g bs = .ok bs ∧ gridSpacing i g b = .ok b ∧ gridOrigin i g b = .ok b := by
  simp [gridShape, gridSpacing, gridOrigin, hg]

/-- **C116 (violated).** Asking for the location of a variable raises `TypeError`. -/
theorem C116_location_violated : varLocation 1 = .error "TypeError" := rfl

/-- **C116 (bytes).** The number of bytes is the element size times the number of elements for
every array, and both are -1 for plain numbers and missing variables. -/
theorem C116_bytes (o : Comp K) (bytes : ℤ) (long n : String) (h1 : o.nameOf long = some n) :
    (∀ v, o.attr n = some (.arr v) → itemsize o bytes long = .ok bytes ∧
      nbytes o bytes long = .ok (bytes * (v.shape.prod : ℕ))) ∧
    ((∀ v, o.attr n ≠ some (.arr v)) → itemsize o bytes long = .ok (-1) ∧
      nbytes o bytes long = .ok (-1)) := by
  constructor
  · intro v h2
    simp [itemsize, nbytes, h1, h2]
  · intro h2
    unfold itemsize nbytes
    simp only [h1]
    cases h : o.attr n with
    | none => simp
    | some a =>
      cases a with
      | arr v => exact absurd h (h2 v)
      | num x => simp

end

end BMIGrid
