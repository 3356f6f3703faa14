import Mathlib.Tactic.Linarith
import Mathlib.Tactic.Ring
import Mathlib.Tactic.NormNum
import Verif.ErodeInitModel

set_option autoImplicit false

/-!
# The start of the landscape evolution model: properties C231, C232
-/

namespace ErodeInit

/-! ## Specification -/

/-- The surfaces that can be asked for. -/
def surfaces : List String := ["FLAT", "PLANE", "CORNER_PLANE"]

/-- The kinds of noise that can be asked for. -/
def noises : List String := ["GAUSSIAN", "MIDPOINTS", "NO_NOISE"]

/-- The tilted plane: zero in the lower left corner. -/
def plane (c : Cfg) (ny : ℕ) (i j : ℕ) : ℚ := c.dzdx * (c.dx * j) + c.dzdy * (c.dy * ((ny : ℚ) - 1 - i))

/-- The cells of the lower edge, the right edge and all edges. -/
def onBottom (ny : ℕ) (i _j : ℕ) : Prop := i = ny - 1
def onRight (nx : ℕ) (_i j : ℕ) : Prop := j = nx - 1

/-! ## C231 -/

theorem nLevels_pos (ny nx : ℕ) (h : 2 < max nx ny) : nLevels ny nx ≠ 0 := by
  unfold nLevels
  have : 0 < Nat.clog 2 (max nx ny - 1) := Nat.clog_pos (by norm_num) (by omega)
  omega

theorem fractal_fails (n : ℕ) (v : Grid) (h : n ≠ 0) : ∀ s, fractal n v ≠ .ok (some s) := by
  intro s hs
  unfold fractal at hs
  by_cases h1 : 11 < n
  · rw [if_pos h1] at hs
    cases hs
  · rw [if_neg h1, if_neg h] at hs
    cases hs

/-- **C231** Which surfaces can be made: with more than two rows or columns, exactly those with Gaussian noise that are not
tilted towards a corner. -/
theorem C231_starts_iff_partial (c : Cfg) (ny nx : ℕ) (h : 2 < max nx ny) (g : Grid) :
    (∃ z, createDEM c ny nx g = .ok z) ↔ c.noise = "GAUSSIAN" ∧ c.z0Upper ≠ "CORNER_PLANE" := by
  unfold createDEM noiseGrid
  by_cases h1 : c.noise = "GAUSSIAN"
  · rw [if_pos h1]
    by_cases h2 : c.z0Upper = "CORNER_PLANE"
    · simp [h2]
    · simp [h1, h2]
  · rw [if_neg h1]
    by_cases h3 : c.noise = "MIDPOINTS"
    · rw [if_pos h3]
      have hf := fractal_fails _ g (nLevels_pos ny nx h)
      cases hh : fractal (nLevels ny nx) g with
      | error e => simp [h1]
      | ok o =>
        cases o with
        | none => simp [h1]
        | some s => exact absurd hh (hf s)
    · rw [if_neg h3]
      simp [h1]

/-- **C231** The surface that is made: the noise, on the plane if one is asked for. -/
theorem C231_surface_partial (c : Cfg) (ny nx : ℕ) (h : 2 < max nx ny) (g z : Grid) (hz : createDEM c ny nx g = .ok z) :
    (c.z0Upper = "PLANE" → ∀ i j, z i j = c.noiseScale * g i j + plane c ny i j) ∧
    (c.z0Upper ≠ "PLANE" → ∀ i j, z i j = c.noiseScale * g i j) := by
  obtain ⟨h1, h2⟩ := (C231_starts_iff_partial c ny nx h g).mp ⟨z, hz⟩
  unfold createDEM noiseGrid at hz
  rw [if_pos h1] at hz
  simp only [if_neg h2] at hz
  constructor
  · intro hp i j
    rw [if_pos hp] at hz
    injection hz with hz
    rw [← hz]
    rfl
  · intro hp i j
    rw [if_neg hp] at hz
    injection hz with hz
    rw [← hz]

/-- **C231** It does not hold: of the nine combinations only two can be made, and not the one of the shipped examples. -/
theorem C231_violated (ny nx : ℕ) (h : 2 < max nx ny) (g : Grid) (c : Cfg) (hs : c.z0Upper ∈ surfaces)
    (hn : c.noise ∈ noises) : (∃ z, createDEM c ny nx g = .ok z) ↔
      (c.z0Upper, c.noise) ∈ [("FLAT", "GAUSSIAN"), ("PLANE", "GAUSSIAN")] := by
  rw [C231_starts_iff_partial c ny nx h g]
  simp only [surfaces, noises, List.mem_cons, List.not_mem_nil, or_false] at hs hn
  rcases hs with e | e | e <;> rcases hn with f | f | f <;> rw [e, f] <;> simp (decide := true)

/-- **C231** A surface from a file: a file of 8-byte, 4-byte or 2-byte numbers is read as such; other files are not read. -/
theorem C231_read_partial (c : Cfg) (ny nx : ℕ) (hn : 0 < nx * ny) (hc : c.z0 = "READ_FILE") (file : String → Grid)
    (g : Grid) (w : ℕ) :
    initDEM c ny nx (nx * ny * w) file g = .ok (if w = 8 then some (file "DOUBLE") else if w = 4 then some (file "FLOAT")
      else if w = 2 then some (file "INTEGER") else none) := by
  unfold initDEM typeOfSize
  rw [if_pos hc]
  have e : ∀ k, (nx * ny * w = nx * ny * k) = (w = k) := by
    intro k
    apply propext
    exact Nat.mul_right_inj (by omega)
  simp only [e]
  by_cases h8 : w = 8
  · simp [h8]
  · by_cases h4 : w = 4
    · simp [h4]
    · by_cases h2 : w = 2
      · simp [h2]
      · simp [h8, h4, h2]

/-- **C231** The method for reading a file is found in upper case only: written in lower case, the file is not read, and the
surface is noise. -/
theorem C231_lower_case_violated (c : Cfg) (ny nx size : ℕ) (h1 : c.z0 ≠ "READ_FILE") (h2 : c.z0Upper = "READ_FILE")
    (h3 : c.noise = "GAUSSIAN") (file : String → Grid) (g : Grid) :
    initDEM c ny nx size file g = .ok (some (fun i j => c.noiseScale * g i j)) := by
  unfold initDEM createDEM noiseGrid
  rw [if_neg h1, if_pos h3, h2]
  simp (decide := true)

/-! ## C232 -/

theorem rowsOk_iff (ny : ℕ) (ids : List ℕ) : rowsOk ny ids = true ↔ ∀ k ∈ ids, k < ny := by
  unfold rowsOk
  rw [List.all_eq_true]
  simp

/-- **C232** The four sides: the surface is kept, and the base level cells are exactly the cells on the edges. -/
theorem C232_four_sides_partial (c : Cfg) (ny nx : ℕ) (hy : 2 ≤ ny) (hx : 2 ≤ nx) (hc : c.bc = "FOUR_SIDES") (z : Grid) :
    ∃ base, boundary c ny nx z = .ok (z, base) ∧
      ∀ i j, i < ny → j < nx → (i * nx + j ∈ base ↔ i = 0 ∨ i = ny - 1 ∨ j = 0 ∨ j = nx - 1) := by
  refine ⟨List.range nx ++ (List.range nx).map (fun k => k + nx * (ny - 1)) ++
      (List.range (ny - 2)).map (fun k => nx * (k + 1)) ++
      ((List.range (ny - 2)).map (fun k => nx * (k + 1))).map (fun k => k + (nx - 1)), ?_, ?_⟩
  · unfold boundary
    rw [if_neg (by rw [hc]; decide), if_neg (by rw [hc]; decide), if_pos hc]
  · intro i j hi hj
    simp only [List.mem_append, List.mem_map, List.mem_range]
    constructor
    · rintro (((h | ⟨k, hk, h⟩) | ⟨k, hk, h⟩) | ⟨k, ⟨k', hk', rfl⟩, h⟩)
      · left
        by_contra h0
        have : nx ≤ i * nx := Nat.le_mul_of_pos_left nx (by omega)
        omega
      · right; left
        have h1 : (ny - 1) * nx + k = i * nx + j := by rw [← h]; ring
        have := congrArg (· / nx) h1
        rw [Nat.add_comm, Nat.add_mul_div_right _ _ (by omega), Nat.div_eq_of_lt hk, Nat.add_comm (i * nx),
          Nat.add_mul_div_right _ _ (by omega), Nat.div_eq_of_lt hj] at this
        omega
      · right; right; left
        have h1 : 0 + (k + 1) * nx = j + i * nx := by rw [Nat.zero_add, Nat.add_comm j, ← h]; ring
        have := congrArg (· % nx) h1
        simp only [Nat.add_mul_mod_self_right, Nat.zero_mod] at this
        rw [Nat.mod_eq_of_lt hj] at this
        exact this.symm
      · right; right; right
        have h1 : (nx - 1) + (k' + 1) * nx = j + i * nx := by rw [Nat.add_comm j, ← h]; ring
        have := congrArg (· % nx) h1
        simp only [Nat.add_mul_mod_self_right] at this
        rw [Nat.mod_eq_of_lt hj, Nat.mod_eq_of_lt (by omega)] at this
        exact this.symm
    · intro h
      by_cases h0 : i = 0
      · left; left; left
        subst h0
        omega
      · by_cases h1 : i = ny - 1
        · left; left; right
          exact ⟨j, hj, by rw [h1]; ring⟩
        · rcases h with h | h | h | h
          · exact absurd h h0
          · exact absurd h h1
          · left; right
            refine ⟨i - 1, by omega, ?_⟩
            rw [h, Nat.sub_add_cancel (by omega)]
            ring
          · right
            refine ⟨_, ⟨i - 1, by omega, rfl⟩, ?_⟩
            rw [h, Nat.sub_add_cancel (by omega)]
            ring

/-- **C232** The lower edge: the call succeeds exactly for grids that are at least twice as high as wide; then all rows of
the upper part, as many as there are columns, are replaced by those below them. -/
theorem C232_bottom_violated (c : Cfg) (ny nx : ℕ) (hx : 0 < nx) (hc : c.bc = "BOTTOM") (z : Grid) :
    ((∃ r, boundary c ny nx z = .ok r) ↔ 2 * nx ≤ ny) ∧
    ∀ z' base, boundary c ny nx z = .ok (z', base) →
      (∀ i j, i < nx → z' i j = z (i + nx) j) ∧ (∀ i j, nx ≤ i → z' i j = z i j) ∧
      ∀ i j, i < ny → j < nx → (i * nx + j ∈ base ↔ onBottom ny i j) := by
  have hok : (rowsOk ny ((List.range nx).map (fun k => k + nx)) && rowsOk ny (List.range nx)) = true ↔ 2 * nx ≤ ny := by
    rw [Bool.and_eq_true, rowsOk_iff, rowsOk_iff]
    simp only [List.mem_map, List.mem_range, forall_exists_index, and_imp, forall_apply_eq_imp_iff₂]
    constructor
    · rintro ⟨h, _⟩
      have := h (nx - 1) (by omega)
      omega
    · intro h
      exact ⟨fun k hk => by omega, fun k hk => by omega⟩
  unfold boundary
  rw [if_pos hc]
  simp only
  by_cases h : 2 * nx ≤ ny
  · rw [if_pos (hok.mpr h)]
    refine ⟨⟨fun _ => h, fun _ => ⟨_, rfl⟩⟩, ?_⟩
    intro z' base he
    injection he with he
    injection he with e1 e2
    subst e1 e2
    refine ⟨fun i j hi => if_pos hi, fun i j hi => if_neg (by omega), ?_⟩
    intro i j hi hj
    unfold onBottom
    simp only [List.mem_map, List.mem_range]
    constructor
    · rintro ⟨k, hk, h⟩
      have h1 : (ny - 1) * nx + k = i * nx + j := by rw [← h]; ring
      have := congrArg (· / nx) h1
      rw [Nat.add_comm, Nat.add_mul_div_right _ _ (by omega), Nat.div_eq_of_lt hk, Nat.add_comm (i * nx),
        Nat.add_mul_div_right _ _ (by omega), Nat.div_eq_of_lt hj] at this
      omega
    · intro h
      exact ⟨j, hj, by rw [h]; ring⟩
  · rw [if_neg (fun hh => h (hok.mp hh))]
    refine ⟨⟨fun hr => (by obtain ⟨r, hr⟩ := hr; cases hr), fun hh => absurd hh h⟩, ?_⟩
    intro z' base he
    cases he

/-- **C232** The right edge: the call succeeds only for a grid with one row or one column; then the whole surface is set to
zero. -/
theorem C232_right_violated (c : Cfg) (ny nx : ℕ) (hx : 0 < nx) (hy : 0 < ny) (hc : c.bc = "RIGHT") (z : Grid) :
    ((∃ r, boundary c ny nx z = .ok r) ↔ nx = 1 ∨ ny = 1) ∧
    ∀ z' base, boundary c ny nx z = .ok (z', base) → ∀ i j, i < ny → z' i j = 0 := by
  have hok : rowsOk ny ((List.range ny).map (fun k => k * nx)) = true ↔ nx = 1 ∨ ny = 1 := by
    rw [rowsOk_iff]
    simp only [List.mem_map, List.mem_range, forall_exists_index, and_imp, forall_apply_eq_imp_iff₂]
    constructor
    · intro h
      have := h (ny - 1) (by omega)
      by_contra hn
      push Not at hn
      have h1 : (ny - 1) * 2 ≤ (ny - 1) * nx := Nat.mul_le_mul_left _ (by omega)
      omega
    · rintro (h | h) k hk
      · rw [h]; omega
      · have : k = 0 := by omega
        rw [this]; omega
  unfold boundary
  rw [if_neg (by rw [hc]; decide), if_pos hc]
  simp only
  by_cases h : nx = 1 ∨ ny = 1
  · rw [if_pos (hok.mpr h)]
    refine ⟨⟨fun _ => h, fun _ => ⟨_, rfl⟩⟩, ?_⟩
    intro z' base he i j hi
    injection he with he
    injection he with e1 e2
    rw [← e1]
    apply if_pos
    simp only [List.mem_map, List.mem_range]
    rcases h with h | h
    · exact ⟨i, hi, by rw [h]; ring⟩
    · exact ⟨0, hy, by omega⟩
  · rw [if_neg (fun hh => h (hok.mp hh))]
    refine ⟨⟨fun hr => (by obtain ⟨r, hr⟩ := hr; cases hr), fun hh => absurd hh h⟩, ?_⟩
    intro z' base he
    cases he

/-- **C232** The corner: the call always fails. -/
theorem C232_corner_violated (c : Cfg) (ny nx : ℕ) (hc : c.bc = "CORNER") (z : Grid) :
    ∃ e, boundary c ny nx z = .error e := by
  unfold boundary
  rw [if_neg (by rw [hc]; decide), if_neg (by rw [hc]; decide), if_neg (by rw [hc]; decide), if_pos hc]
  exact ⟨_, rfl⟩

/-- The configuration of a shipped example (Test_erode_global.cfg), and one that can be started. -/
def shipped : Cfg where
  z0 := "FLAT"
  z0Upper := "FLAT"
  noise := "MIDPOINTS"
  bc := "FOUR_SIDES"
  noiseScale := 1
  dzdx := 1 / 10
  dzdy := 0
  dx := 10
  dy := 10

example (ny nx : ℕ) (h : 2 < max nx ny) (g : Grid) : ¬ ∃ z, createDEM shipped ny nx g = .ok z := by
  rw [C231_starts_iff_partial _ _ _ h]
  simp (decide := true)

example (g : Grid) : ∃ z, createDEM { shipped with noise := "GAUSSIAN", z0Upper := "PLANE" } 44 29 g = .ok z := by
  rw [C231_starts_iff_partial _ _ _ (by decide)]
  simp (decide := true)

end ErodeInit
