import Mathlib.Tactic.Linarith
import Mathlib.Tactic.Positivity
import Mathlib.Tactic.FieldSimp
import Mathlib.Tactic.NormNum
import Mathlib.Tactic.Ring
import Mathlib.Algebra.BigOperators.Intervals
import Mathlib.Algebra.BigOperators.Ring.Finset
import Mathlib.Algebra.BigOperators.Field
import Mathlib.Algebra.Order.BigOperators.Group.Finset
import Verif.IceModel

/-!
# Theorems on the glacier ice model (C139 – C152)
-/

set_option autoImplicit false
set_option linter.unusedSectionVars false

noncomputable section

open Finset

namespace Ice

/-! ### Specification -/

/-- Sum of a quantity over the cells of a grid. -/
def total (ny nx : ℕ) (f : Grid) : ℝ := ∑ i ∈ range ny, ∑ j ∈ range nx, f i j

/-- The rate at which ice enters through the western and eastern borders, per unit of border length, summed over rows. -/
def inX (ny nx : ℕ) (mo : Motion) : ℝ := ∑ i ∈ range ny, (mo.qx i 0 - mo.qx i nx)
/-- The rate at which ice enters through the southern and northern borders, per unit of length, summed over columns. -/
def inY (ny nx : ℕ) (mo : Motion) : ℝ := ∑ j ∈ range nx, (mo.qy 0 j - mo.qy ny j)

/-- What is left in a cell after snowfall and ice motion, before melting; it can be negative. -/
def before (H B dHdt : Grid) (dt : ℝ) : Grid := fun i j => H i j + dt * max 0 (B i j) + dt * dHdt i j
/-- Thickness that snowfall adds. -/
def snow (B : Grid) (dt : ℝ) : Grid := fun i j => dt * max 0 (B i j)
/-- Thickness that melts: what the climate asks for, but not more than there is. -/
def melt (H B dHdt : Grid) (dt : ℝ) : Grid := fun i j => min (max 0 (before H B dHdt dt i j)) (dt * max 0 (-B i j))
/-- Thickness that motion takes from a cell beyond what there is. -/
def deficit (H B dHdt : Grid) (dt : ℝ) : Grid := fun i j => max 0 (-before H B dHdt dt i j)

/-- Parameters with which ice deforms and slides in the direction of the stress. -/
structure Physical (p : Params) : Prop where
  rho : 0 < p.rhoI
  grav : 0 < p.g
  slide : 0 ≤ p.usChar

lemma imported_physical : Physical imported.par := by
  constructor <;> norm_num [imported]

/-! ### Boundary conditions -/

lemma addHalo_inside {ny nx : ℕ} {x : Grid} {i j : ℕ} (hi : i < ny) (hj : j < nx) :
    addHalo ny nx x (i + 1) (j + 1) = x i j := by
  simp only [addHalo, Nat.add_sub_cancel]
  rw [min_eq_left (by omega), min_eq_left (by omega)]

lemma addHalo_nonneg {ny nx : ℕ} {x : Grid} (hy : 0 < ny) (hx : 0 < nx)
    (h : ∀ i < ny, ∀ j < nx, 0 ≤ x i j) (i j : ℕ) : 0 ≤ addHalo ny nx x i j := by
  unfold addHalo
  exact h _ (by omega) _ (by omega)

lemma bcCol_spec {bc : BC} {j j1 j2 : ℕ} {ZbE : Grid} {s s' : Grid × Grid} (h : bcCol bc j j1 j2 ZbE s = .ok s') :
    (∀ i k, k ≠ j → s'.1 i k = s.1 i k ∧ s'.2 i k = s.2 i k) ∧
    ((∀ i k, 0 ≤ s.1 i k) → ∀ i k, 0 ≤ s'.1 i k) ∧
    (bc = .iceFree → ∀ i, s'.1 i j = 0) ∧
    (bc ≠ .iceFree → bc ≠ .surfSlope → ∀ i, s'.1 i j = s.1 i j) ∧
    (bc = .surfSlope → ∀ i, s'.1 i j = max (2 * s.2 i j1 - s.2 i j2 - ZbE i j) 0) := by
  cases bc <;> simp only [bcCol, reduceCtorEq, Except.ok.injEq] at h <;> subst h
  case iceFree =>
    refine ⟨fun i k hk => by simp [setCol, hk], fun hn i k => ?_, fun _ i => by simp [setCol], by simp, by simp⟩
    by_cases hk : k = j <;> simp [setCol, hk, hn]
  case surfSlope =>
    refine ⟨fun i k hk => by simp [setCol, hk], fun hn i k => ?_, by simp, by simp, fun _ i => by simp [setCol]⟩
    by_cases hk : k = j <;> simp [setCol, hk, hn]
  all_goals exact ⟨by simp, fun hn => hn, by simp, by simp, by simp⟩

lemma bcRow_spec {bc : BC} {r r1 r2 : ℕ} {ZbE : Grid} {s s' : Grid × Grid} (h : bcRow bc r r1 r2 ZbE s = .ok s') :
    (∀ i k, i ≠ r → s'.1 i k = s.1 i k ∧ s'.2 i k = s.2 i k) ∧
    ((∀ i k, 0 ≤ s.1 i k) → ∀ i k, 0 ≤ s'.1 i k) ∧
    (bc = .iceFree → ∀ k, s'.1 r k = 0) ∧
    (bc ≠ .iceFree → bc ≠ .surfSlope → ∀ k, s'.1 r k = s.1 r k) ∧
    (bc = .surfSlope → ∀ k, s'.1 r k = max (2 * s.2 r1 k - s.2 r2 k - ZbE r k) 0) := by
  cases bc <;> simp only [bcRow, reduceCtorEq, Except.ok.injEq] at h <;> subst h
  case iceFree =>
    refine ⟨fun i k hk => by simp [setRow, hk], fun hn i k => ?_, fun _ i => by simp [setRow], by simp, by simp⟩
    by_cases hk : i = r <;> simp [setRow, hk, hn]
  case surfSlope =>
    refine ⟨fun i k hk => by simp [setRow, hk], fun hn i k => ?_, by simp, by simp, fun _ i => by simp [setRow]⟩
    by_cases hk : i = r <;> simp [setRow, hk, hn]
  all_goals exact ⟨by simp, fun hn => hn, by simp, by simp, by simp⟩

/-- Everything that is used below about the thickness with a halo. -/
structure HaloSpec (ny nx : ℕ) (H Zb Zi : Grid) (west east south north : BC) (HE ZiE : Grid) : Prop where
  surf : ∀ i j, ZiE i j = addHalo ny nx Zb i j + HE i j
  inside : ∀ i < ny, ∀ j < nx, HE (i + 1) (j + 1) = H i j
  nonneg : 0 < ny → 0 < nx → (∀ i < ny, ∀ j < nx, 0 ≤ H i j) → ∀ i j, 0 ≤ HE i j
  westFree : west = .iceFree → ∀ i < ny, HE (i + 1) 0 = 0
  eastFree : east = .iceFree → ∀ i < ny, HE (i + 1) (nx + 1) = 0
  southFree : south = .iceFree → ∀ j < nx, HE 0 (j + 1) = 0
  northFree : north = .iceFree → ∀ j < nx, HE (ny + 1) (j + 1) = 0
  westCopy : west ≠ .iceFree → west ≠ .surfSlope → ∀ i < ny, HE (i + 1) 0 = H i 0
  eastCopy : east ≠ .iceFree → east ≠ .surfSlope → ∀ i < ny, HE (i + 1) (nx + 1) = H i (nx - 1)
  southCopy : south ≠ .iceFree → south ≠ .surfSlope → ∀ j < nx, HE 0 (j + 1) = H 0 j
  northCopy : north ≠ .iceFree → north ≠ .surfSlope → ∀ j < nx, HE (ny + 1) (j + 1) = H (ny - 1) j
  westSlope : west = .surfSlope → 2 ≤ nx → ∀ i < ny, HE (i + 1) 0 = max (2 * Zi i 0 - Zi i 1 - Zb i 0) 0
  eastSlope : east = .surfSlope → 2 ≤ nx → ∀ i < ny,
    HE (i + 1) (nx + 1) = max (2 * Zi i (nx - 1) - Zi i (nx - 2) - Zb i (nx - 1)) 0
  southSlope : south = .surfSlope → 2 ≤ ny → ∀ j < nx, HE 0 (j + 1) = max (2 * Zi 0 j - Zi 1 j - Zb 0 j) 0
  northSlope : north = .surfSlope → 2 ≤ ny → ∀ j < nx,
    HE (ny + 1) (j + 1) = max (2 * Zi (ny - 1) j - Zi (ny - 2) j - Zb (ny - 1) j) 0

lemma setBc_spec {ny nx : ℕ} {H Zb Zi : Grid} {west east south north : BC} {HE ZbE ZiE : Grid}
    (h : setBc ny nx H Zb Zi west east south north = .ok (HE, ZbE, ZiE)) :
    HaloSpec ny nx H Zb Zi west east south north HE ZiE := by
  unfold setBc at h
  dsimp only at h
  split at h
  · simp at h
  rename_i s1 h1
  split at h
  · simp at h
  rename_i s2 h2
  split at h
  · simp at h
  rename_i s3 h3
  split at h
  · simp at h
  rename_i s4 h4
  simp only [Except.ok.injEq, Prod.mk.injEq] at h
  obtain ⟨rfl, rfl, rfl⟩ := h
  obtain ⟨k1, n1, f1, c1, e1⟩ := bcCol_spec h1
  obtain ⟨k2, n2, f2, c2, e2⟩ := bcCol_spec h2
  obtain ⟨k3, n3, f3, c3, e3⟩ := bcRow_spec h3
  obtain ⟨k4, n4, f4, c4, e4⟩ := bcRow_spec h4
  -- cells of the halo columns, in rows of the grid
  have rows : ∀ i < ny, ∀ k, s4.1 (i + 1) k = s2.1 (i + 1) k := fun i hi k => by
    rw [(k4 _ _ (by omega)).1, (k3 _ _ (by omega)).1]
  have cols : ∀ i, ∀ j < nx, s2.1 i (j + 1) = addHalo ny nx H i (j + 1) := fun i j hj => by
    rw [(k2 _ _ (by omega)).1, (k1 _ _ (by omega)).1]
  have cols2 : ∀ i, ∀ j < nx, s2.2 i (j + 1) = addHalo ny nx Zi i (j + 1) := fun i j hj => by
    rw [(k2 _ _ (by omega)).2, (k1 _ _ (by omega)).2]
  have w1 : ∀ i < ny, s4.1 (i + 1) 0 = s1.1 (i + 1) 0 := fun i hi => by
    rw [rows i hi, (k2 _ _ (by omega)).1]
  have q1 : ∀ j < nx, s4.1 0 (j + 1) = s3.1 0 (j + 1) := fun j hj => by
    rw [(k4 _ _ (by omega)).1]
  refine ⟨fun i j => rfl, fun i hi j hj => ?_, fun hy hx hn => ?_, ?_, ?_, ?_, ?_, ?_, ?_, ?_, ?_, ?_, ?_, ?_, ?_⟩
  · rw [rows i hi, cols _ j hj, addHalo_inside hi hj]
  · exact n4 (n3 (n2 (n1 fun i k => addHalo_nonneg hy hx hn i k)))
  · exact fun hb i hi => by rw [w1 i hi, f1 hb]
  · exact fun hb i hi => by rw [rows i hi, f2 hb]
  · exact fun hb j hj => by rw [q1 j hj, f3 hb]
  · exact fun hb j hj => by rw [f4 hb]
  · intro hb hb' i hi
    rw [w1 i hi, c1 hb hb']
    simp only [addHalo, Nat.add_sub_cancel, Nat.zero_sub, Nat.zero_min]
    rw [min_eq_left (by omega)]
  · intro hb hb' i hi
    rw [rows i hi, c2 hb hb', (k1 _ _ (by omega)).1]
    simp only [addHalo, Nat.add_sub_cancel]
    rw [min_eq_left (by omega), min_eq_right (by omega)]
  · intro hb hb' j hj
    rw [q1 j hj, c3 hb hb', cols _ j hj]
    simp only [addHalo, Nat.add_sub_cancel, Nat.zero_sub, Nat.zero_min]
    rw [min_eq_left (by omega)]
  · intro hb hb' j hj
    rw [c4 hb hb', (k3 _ _ (by omega)).1, cols _ j hj]
    simp only [addHalo, Nat.add_sub_cancel]
    rw [min_eq_right (by omega), min_eq_left (by omega)]
  · intro hb h2 i hi
    rw [w1 i hi, e1 hb]
    have a1 : addHalo ny nx Zi (i + 1) 1 = Zi i 0 := addHalo_inside (j := 0) hi (by omega)
    have a2 : addHalo ny nx Zi (i + 1) 2 = Zi i 1 := addHalo_inside (j := 1) hi (by omega)
    have a3 : addHalo ny nx Zb (i + 1) 0 = Zb i 0 := by
      simp only [addHalo, Nat.add_sub_cancel, Nat.zero_sub, Nat.zero_min]
      rw [min_eq_left (by omega)]
    simp only [a1, a2, a3]
  · intro hb h2 i hi
    rw [rows i hi, e2 hb]
    have b1 : s1.2 (i + 1) nx = Zi i (nx - 1) := by
      rw [(k1 _ _ (by omega)).2]
      obtain ⟨n, rfl⟩ : ∃ n, nx = n + 1 := ⟨nx - 1, by omega⟩
      exact addHalo_inside hi (by omega)
    have b2 : s1.2 (i + 1) (nx - 1) = Zi i (nx - 2) := by
      rw [(k1 _ _ (by omega)).2]
      obtain ⟨n, rfl⟩ : ∃ n, nx = n + 2 := ⟨nx - 2, by omega⟩
      exact addHalo_inside (j := n) hi (by omega)
    have b3 : addHalo ny nx Zb (i + 1) (nx + 1) = Zb i (nx - 1) := by
      simp only [addHalo, Nat.add_sub_cancel]
      rw [min_eq_left (by omega), min_eq_right (by omega)]
    rw [b1, b2, b3]
  · intro hb h2 j hj
    rw [q1 j hj, e3 hb]
    have a1 : s2.2 1 (j + 1) = Zi 0 j := by rw [cols2 _ j hj]; exact addHalo_inside (i := 0) (by omega) hj
    have a2 : s2.2 2 (j + 1) = Zi 1 j := by rw [cols2 _ j hj]; exact addHalo_inside (i := 1) (by omega) hj
    have a3 : addHalo ny nx Zb 0 (j + 1) = Zb 0 j := by
      simp only [addHalo, Nat.add_sub_cancel, Nat.zero_sub, Nat.zero_min]
      rw [min_eq_left (by omega)]
    rw [a1, a2, a3]
  · intro hb h2 j hj
    rw [e4 hb]
    have b1 : s3.2 ny (j + 1) = Zi (ny - 1) j := by
      rw [(k3 _ _ (by omega)).2, cols2 _ j hj]
      obtain ⟨n, rfl⟩ : ∃ n, ny = n + 1 := ⟨ny - 1, by omega⟩
      exact addHalo_inside (by omega) hj
    have b2 : s3.2 (ny - 1) (j + 1) = Zi (ny - 2) j := by
      rw [(k3 _ _ (by omega)).2, cols2 _ j hj]
      obtain ⟨n, rfl⟩ : ∃ n, ny = n + 2 := ⟨ny - 2, by omega⟩
      exact addHalo_inside (i := n) (by omega) hj
    have b3 : addHalo ny nx Zb (ny + 1) (j + 1) = Zb (ny - 1) j := by
      simp only [addHalo, Nat.add_sub_cancel]
      rw [min_eq_right (by omega), min_eq_left (by omega)]
    rw [b1, b2, b3]

/-! ### Fluxes follow the slope of the surface -/

lemma velocity_dir {p : Params} (hp : Physical p) (flow slide : Bool) (taub H cm : Grid) (i j : ℕ) :
    ∃ c : ℝ, 0 ≤ c ∧ velocity p flow slide taub H cm i j = c * cm i j := by
  have hs := hp.slide
  refine ⟨(if flow then |0.4 * p.glensA * taub i j * taub i j * taub i j * H i j| else 0) +
    (if slide then (if |taub i j| < 1e-5 then p.usChar * Real.exp (1 - p.taubChar)
      else p.usChar * Real.exp (1 - p.taubChar / taub i j)) else 0), ?_, ?_⟩
  · refine add_nonneg ?_ ?_
    · split_ifs <;> positivity
    · split_ifs <;> positivity
  · unfold velocity iceflow iceSliding
    rw [add_mul]
    congr 1
    · split_ifs <;> simp
    · split_ifs <;> simp

lemma cmpnt_dir {rho g : ℝ} (hr : 0 < rho) (hg : 0 < g) {h t s : ℝ} (hh : 0 ≤ h) (ht : 0 ≤ t) :
    ∃ c : ℝ, 0 ≤ c ∧ (if |t| < 1e-5 then 0 else (-rho * g * h * s) / t) = c * -s := by
  refine ⟨if |t| < 1e-5 then 0 else rho * g * h / t, ?_, ?_⟩
  · split_ifs <;> positivity
  · split_ifs
    · simp
    · ring

lemma flux_dir_x {p : Params} (hp : Physical p) {we ea so no : BC} {flow slide : Bool} {ny nx : ℕ} {dx dy : ℝ}
    {HE ZiE : Grid} (hn : ∀ i j, 0 ≤ HE i j) (i j : ℕ) :
    ∃ c : ℝ, 0 ≤ c ∧ (motionOf p we ea so no flow slide ny nx dx dy HE ZiE).qx i j = -(c * diffX ZiE dx i j) := by
  simp only [motionOf, fluxX]
  by_cases h2 : ea = .constFlux ∧ j = nx
  · exact ⟨0, le_rfl, by simp [h2.1, h2.2, setCol]⟩
  by_cases h1 : we = .constFlux ∧ j = 0
  · refine ⟨0, le_rfl, ?_⟩
    rw [h1.1, h1.2]
    by_cases h3 : ea = .constFlux
    · simp [h3, setCol]
    · simp [h3, setCol]
  set s := basalShearStress p HE ZiE dx dy with hs
  have key : ∃ c : ℝ, 0 ≤ c ∧
      stopX p.minGlacThick HE (velocity p flow slide s.taubX s.HX s.xcmpnt) (diffX ZiE dx) i j * s.HX i j =
        -(c * diffX ZiE dx i j) := by
    have hHX : 0 ≤ s.HX i j := by
      simp only [hs, basalShearStress, meanX]
      have := hn (i + 1) (j + 1); have := hn (i + 1) j
      linarith
    unfold stopX
    split_ifs
    · exact ⟨0, le_rfl, by simp⟩
    obtain ⟨c1, hc1, e1⟩ := velocity_dir hp flow slide s.taubX s.HX s.xcmpnt i j
    obtain ⟨c2, hc2, e2⟩ := cmpnt_dir hp.rho hp.grav (h := s.HX i j) (t := s.taubX i j) (s := diffX ZiE dx i j) hHX
      (by simp only [hs, basalShearStress]; split_ifs <;> positivity)
    refine ⟨c1 * c2 * s.HX i j, by positivity, ?_⟩
    have e3 : s.xcmpnt i j = c2 * -diffX ZiE dx i j := by
      rw [← e2]; rfl
    rw [e1, e3]; ring
  obtain ⟨c, hc, e⟩ := key
  refine ⟨c, hc, ?_⟩
  rw [← e]
  by_cases ha : we = .constFlux <;> by_cases hb : ea = .constFlux
  · have : j ≠ 0 := fun h => h1 ⟨ha, h⟩
    have : j ≠ nx := fun h => h2 ⟨hb, h⟩
    simp_all [setCol]
  · have : j ≠ 0 := fun h => h1 ⟨ha, h⟩
    simp_all [setCol]
  · have : j ≠ nx := fun h => h2 ⟨hb, h⟩
    simp_all [setCol]
  · simp_all

lemma flux_dir_y {p : Params} (hp : Physical p) {we ea so no : BC} {flow slide : Bool} {ny nx : ℕ} {dx dy : ℝ}
    {HE ZiE : Grid} (hn : ∀ i j, 0 ≤ HE i j) (i j : ℕ) :
    ∃ c : ℝ, 0 ≤ c ∧ (motionOf p we ea so no flow slide ny nx dx dy HE ZiE).qy i j = -(c * diffY ZiE dy i j) := by
  simp only [motionOf, fluxY]
  by_cases h2 : no = .constFlux ∧ i = ny
  · exact ⟨0, le_rfl, by simp [h2.1, h2.2, setRow]⟩
  by_cases h1 : so = .constFlux ∧ i = 0
  · refine ⟨0, le_rfl, ?_⟩
    rw [h1.1, h1.2]
    by_cases h3 : no = .constFlux
    · simp [h3, setRow]
    · simp [h3, setRow]
  set s := basalShearStress p HE ZiE dx dy with hs
  have key : ∃ c : ℝ, 0 ≤ c ∧
      stopY p.minGlacThick HE (velocity p flow slide s.taubY s.HY s.ycmpnt) (diffY ZiE dy) i j * s.HY i j =
        -(c * diffY ZiE dy i j) := by
    have hHY : 0 ≤ s.HY i j := by
      simp only [hs, basalShearStress, meanY]
      have := hn (i + 1) (j + 1); have := hn i (j + 1)
      linarith
    unfold stopY
    split_ifs
    · exact ⟨0, le_rfl, by simp⟩
    obtain ⟨c1, hc1, e1⟩ := velocity_dir hp flow slide s.taubY s.HY s.ycmpnt i j
    obtain ⟨c2, hc2, e2⟩ := cmpnt_dir hp.rho hp.grav (h := s.HY i j) (t := s.taubY i j) (s := diffY ZiE dy i j) hHY
      (by simp only [hs, basalShearStress]; split_ifs <;> positivity)
    refine ⟨c1 * c2 * s.HY i j, by positivity, ?_⟩
    have e3 : s.ycmpnt i j = c2 * -diffY ZiE dy i j := by
      rw [← e2]; rfl
    rw [e1, e3]; ring
  obtain ⟨c, hc, e⟩ := key
  refine ⟨c, hc, ?_⟩
  rw [← e]
  by_cases ha : so = .constFlux <;> by_cases hb : no = .constFlux
  · have : i ≠ 0 := fun h => h1 ⟨ha, h⟩
    have : i ≠ ny := fun h => h2 ⟨hb, h⟩
    simp_all [setRow]
  · have : i ≠ 0 := fun h => h1 ⟨ha, h⟩
    simp_all [setRow]
  · have : i ≠ ny := fun h => h2 ⟨hb, h⟩
    simp_all [setRow]
  · simp_all


lemma motion_spec {p : Params} {we ea so no : BC} {flow slide : Bool} {ny nx : ℕ} {dx dy : ℝ} {H Zb Zi : Grid}
    {mo : Motion} (h : motion p we ea so no flow slide ny nx dx dy H Zb Zi = .ok mo) :
    ∃ HE ZiE, HaloSpec ny nx H Zb Zi we ea so no HE ZiE ∧
      mo = motionOf p we ea so no flow slide ny nx dx dy HE ZiE := by
  unfold motion at h
  split at h
  · simp at h
  rename_i HE ZbE ZiE hb
  simp only [Except.ok.injEq] at h
  exact ⟨HE, ZiE, setBc_spec hb, h.symm⟩

lemma surf_inside {ny nx : ℕ} {H Zb Zi HE ZiE : Grid} {we ea so no : BC}
    (hs : HaloSpec ny nx H Zb Zi we ea so no HE ZiE) (hn : ∀ i < ny, ∀ j < nx, 0 ≤ H i j) {i j : ℕ} (hi : i < ny)
    (hj : j < nx) : ZiE (i + 1) (j + 1) = surface H Zb i j := by
  rw [hs.surf, addHalo_inside hi hj, hs.inside i hi j hj, surface, max_eq_left (hn i hi j hj)]

/-! ### C142: ice moves down the slope of its surface -/

/-- Between two neighbours in a row ice moves towards the lower ice surface, and not at all where both are level. -/
theorem C142_rows {p : Params} (hp : Physical p) {we ea so no : BC} {flow slide : Bool} {ny nx : ℕ} {dx dy : ℝ}
    (hdx : 0 < dx) {H Zb : Grid} (hn : ∀ i < ny, ∀ j < nx, 0 ≤ H i j) {mo : Motion}
    (h : motion p we ea so no flow slide ny nx dx dy H Zb (surface H Zb) = .ok mo) {i j : ℕ} (hi : i < ny)
    (hj : j + 1 < nx) :
    mo.qx i (j + 1) * (surface H Zb i (j + 1) - surface H Zb i j) ≤ 0 ∧
      (surface H Zb i (j + 1) = surface H Zb i j → mo.qx i (j + 1) = 0) := by
  obtain ⟨HE, ZiE, hs, rfl⟩ := motion_spec h
  obtain ⟨c, hc, e⟩ := flux_dir_x (we := we) (ea := ea) (so := so) (no := no) (flow := flow) (slide := slide) (ny := ny)
    (nx := nx) (dx := dx) (dy := dy) (ZiE := ZiE) hp (hs.nonneg (by omega) (by omega) hn) i (j + 1)
  have d : diffX ZiE dx i (j + 1) = (surface H Zb i (j + 1) - surface H Zb i j) / dx := by
    rw [diffX, surf_inside hs hn hi hj, surf_inside hs hn hi (by omega)]
  rw [e, d]
  constructor
  · set z := surface H Zb i (j + 1) - surface H Zb i j
    have : -(c * (z / dx)) * z = -(c * (z * z) / dx) := by ring
    rw [this]
    have : 0 ≤ c * (z * z) / dx := by have := mul_self_nonneg z; positivity
    linarith
  · intro hz
    rw [hz]; simp

/-- Between two neighbours in a column ice moves towards the lower ice surface, and not at all where both are level. -/
theorem C142_columns {p : Params} (hp : Physical p) {we ea so no : BC} {flow slide : Bool} {ny nx : ℕ} {dx dy : ℝ}
    (hdy : 0 < dy) {H Zb : Grid} (hn : ∀ i < ny, ∀ j < nx, 0 ≤ H i j) {mo : Motion}
    (h : motion p we ea so no flow slide ny nx dx dy H Zb (surface H Zb) = .ok mo) {i j : ℕ} (hi : i + 1 < ny)
    (hj : j < nx) :
    mo.qy (i + 1) j * (surface H Zb (i + 1) j - surface H Zb i j) ≤ 0 ∧
      (surface H Zb (i + 1) j = surface H Zb i j → mo.qy (i + 1) j = 0) := by
  obtain ⟨HE, ZiE, hs, rfl⟩ := motion_spec h
  obtain ⟨c, hc, e⟩ := flux_dir_y (we := we) (ea := ea) (so := so) (no := no) (flow := flow) (slide := slide) (ny := ny)
    (nx := nx) (dx := dx) (dy := dy) (ZiE := ZiE) hp (hs.nonneg (by omega) (by omega) hn) (i + 1) j
  have d : diffY ZiE dy (i + 1) j = (surface H Zb (i + 1) j - surface H Zb i j) / dy := by
    rw [diffY, surf_inside hs hn hi hj, surf_inside hs hn (by omega : i < ny) hj]
  rw [e, d]
  constructor
  · set z := surface H Zb (i + 1) j - surface H Zb i j
    have : -(c * (z / dy)) * z = -(c * (z * z) / dy) := by ring
    rw [this]
    have : 0 ≤ c * (z * z) / dy := by have := mul_self_nonneg z; positivity
    linarith
  · intro hz
    rw [hz]; simp

/-! ### C143: boundary conditions -/

lemma halo_west {ny nx : ℕ} {x : Grid} {i : ℕ} (hi : i < ny) : addHalo ny nx x (i + 1) 0 = x i 0 := by
  simp only [addHalo, Nat.add_sub_cancel, Nat.zero_sub, Nat.zero_min]
  rw [min_eq_left (by omega)]
lemma halo_east {ny nx : ℕ} {x : Grid} {i : ℕ} (hi : i < ny) : addHalo ny nx x (i + 1) (nx + 1) = x i (nx - 1) := by
  simp only [addHalo, Nat.add_sub_cancel]
  rw [min_eq_left (by omega), min_eq_right (by omega)]
lemma halo_south {ny nx : ℕ} {x : Grid} {j : ℕ} (hj : j < nx) : addHalo ny nx x 0 (j + 1) = x 0 j := by
  simp only [addHalo, Nat.add_sub_cancel, Nat.zero_sub, Nat.zero_min]
  rw [min_eq_left (by omega)]
lemma halo_north {ny nx : ℕ} {x : Grid} {j : ℕ} (hj : j < nx) : addHalo ny nx x (ny + 1) (j + 1) = x (ny - 1) j := by
  simp only [addHalo, Nat.add_sub_cancel]
  rw [min_eq_right (by omega), min_eq_left (by omega)]

/-- Ice-free borders: ice can leave through such a side, but not enter. -/
theorem C143_ice_free {p : Params} (hp : Physical p) {we ea so no : BC} {flow slide : Bool} {ny nx : ℕ} {dx dy : ℝ}
    (hdx : 0 < dx) (hdy : 0 < dy) {H Zb : Grid} (hn : ∀ i < ny, ∀ j < nx, 0 ≤ H i j) {mo : Motion}
    (h : motion p we ea so no flow slide ny nx dx dy H Zb (surface H Zb) = .ok mo) {i j : ℕ} (hi : i < ny)
    (hj : j < nx) :
    (we = .iceFree → mo.qx i 0 ≤ 0) ∧ (ea = .iceFree → 0 ≤ mo.qx i nx) ∧
      (so = .iceFree → mo.qy 0 j ≤ 0) ∧ (no = .iceFree → 0 ≤ mo.qy ny j) := by
  obtain ⟨HE, ZiE, hs, rfl⟩ := motion_spec h
  have hN := hs.nonneg (by omega) (by omega) hn
  refine ⟨fun hb => ?_, fun hb => ?_, fun hb => ?_, fun hb => ?_⟩
  · obtain ⟨c, hc, e⟩ := flux_dir_x (we := we) (ea := ea) (so := so) (no := no) (flow := flow) (slide := slide)
      (ny := ny) (nx := nx) (dx := dx) (dy := dy) (ZiE := ZiE) hp hN i 0
    have d : diffX ZiE dx i 0 = H i 0 / dx := by
      rw [diffX, hs.surf (i + 1) 0, hs.surf (i + 1) (0 + 1), halo_west hi, addHalo_inside hi (by omega),
        hs.inside i hi 0 (by omega), hs.westFree hb i hi]
      ring
    rw [e, d]
    have := hn i hi 0 (by omega)
    have : 0 ≤ c * (H i 0 / dx) := by positivity
    linarith
  · obtain ⟨c, hc, e⟩ := flux_dir_x (we := we) (ea := ea) (so := so) (no := no) (flow := flow) (slide := slide)
      (ny := ny) (nx := nx) (dx := dx) (dy := dy) (ZiE := ZiE) hp hN i nx
    have d : diffX ZiE dx i nx = -(H i (nx - 1) / dx) := by
      rw [diffX, hs.surf (i + 1) (nx + 1), hs.surf (i + 1) nx, halo_east hi, hs.eastFree hb i hi]
      obtain ⟨n, rfl⟩ : ∃ n, nx = n + 1 := ⟨nx - 1, by omega⟩
      rw [addHalo_inside hi (by omega), hs.inside i hi n (by omega)]
      simp only [Nat.add_sub_cancel]; ring
    rw [e, d]
    have := hn i hi (nx - 1) (by omega)
    have : 0 ≤ c * (H i (nx - 1) / dx) := by positivity
    linarith
  · obtain ⟨c, hc, e⟩ := flux_dir_y (we := we) (ea := ea) (so := so) (no := no) (flow := flow) (slide := slide)
      (ny := ny) (nx := nx) (dx := dx) (dy := dy) (ZiE := ZiE) hp hN 0 j
    have d : diffY ZiE dy 0 j = H 0 j / dy := by
      rw [diffY, hs.surf 0 (j + 1), hs.surf (0 + 1) (j + 1), halo_south hj, addHalo_inside (by omega) hj,
        hs.inside 0 (by omega) j hj, hs.southFree hb j hj]
      ring
    rw [e, d]
    have := hn 0 (by omega) j hj
    have : 0 ≤ c * (H 0 j / dy) := by positivity
    linarith
  · obtain ⟨c, hc, e⟩ := flux_dir_y (we := we) (ea := ea) (so := so) (no := no) (flow := flow) (slide := slide)
      (ny := ny) (nx := nx) (dx := dx) (dy := dy) (ZiE := ZiE) hp hN ny j
    have d : diffY ZiE dy ny j = -(H (ny - 1) j / dy) := by
      rw [diffY, hs.surf (ny + 1) (j + 1), hs.surf ny (j + 1), halo_north hj, hs.northFree hb j hj]
      obtain ⟨n, rfl⟩ : ∃ n, ny = n + 1 := ⟨ny - 1, by omega⟩
      rw [addHalo_inside (by omega) hj, hs.inside n (by omega) j hj]
      simp only [Nat.add_sub_cancel]; ring
    rw [e, d]
    have := hn (ny - 1) (by omega) j hj
    have : 0 ≤ c * (H (ny - 1) j / dy) := by positivity
    linarith

/-- Borders with no flux, or with a constant flux (whose value is zero): no ice crosses such a side. -/
theorem C143_no_flux {p : Params} (hp : Physical p) {we ea so no : BC} {flow slide : Bool} {ny nx : ℕ} {dx dy : ℝ}
    {H Zb : Grid} (hn : ∀ i < ny, ∀ j < nx, 0 ≤ H i j) {mo : Motion}
    (h : motion p we ea so no flow slide ny nx dx dy H Zb (surface H Zb) = .ok mo) {i j : ℕ} (hi : i < ny)
    (hj : j < nx) :
    ((we = .zeroFlux ∨ we = .constFlux) → mo.qx i 0 = 0) ∧ ((ea = .zeroFlux ∨ ea = .constFlux) → mo.qx i nx = 0) ∧
      ((so = .zeroFlux ∨ so = .constFlux) → mo.qy 0 j = 0) ∧ ((no = .zeroFlux ∨ no = .constFlux) → mo.qy ny j = 0) := by
  obtain ⟨HE, ZiE, hs, rfl⟩ := motion_spec h
  have hN := hs.nonneg (by omega) (by omega) hn
  refine ⟨fun hb => ?_, fun hb => ?_, fun hb => ?_, fun hb => ?_⟩
  · obtain ⟨c, hc, e⟩ := flux_dir_x (we := we) (ea := ea) (so := so) (no := no) (flow := flow) (slide := slide)
      (ny := ny) (nx := nx) (dx := dx) (dy := dy) (ZiE := ZiE) hp hN i 0
    have d : diffX ZiE dx i 0 = 0 := by
      rw [diffX, hs.surf (i + 1) 0, hs.surf (i + 1) (0 + 1), halo_west hi, addHalo_inside hi (by omega),
        hs.inside i hi 0 (by omega),
        hs.westCopy (by rcases hb with rfl | rfl <;> simp) (by rcases hb with rfl | rfl <;> simp) i hi]
      simp
    rw [e, d]; simp
  · obtain ⟨c, hc, e⟩ := flux_dir_x (we := we) (ea := ea) (so := so) (no := no) (flow := flow) (slide := slide)
      (ny := ny) (nx := nx) (dx := dx) (dy := dy) (ZiE := ZiE) hp hN i nx
    have d : diffX ZiE dx i nx = 0 := by
      rw [diffX, hs.surf (i + 1) (nx + 1), hs.surf (i + 1) nx, halo_east hi,
        hs.eastCopy (by rcases hb with rfl | rfl <;> simp) (by rcases hb with rfl | rfl <;> simp) i hi]
      obtain ⟨n, rfl⟩ : ∃ n, nx = n + 1 := ⟨nx - 1, by omega⟩
      rw [addHalo_inside hi (by omega), hs.inside i hi n (by omega)]
      simp
    rw [e, d]; simp
  · obtain ⟨c, hc, e⟩ := flux_dir_y (we := we) (ea := ea) (so := so) (no := no) (flow := flow) (slide := slide)
      (ny := ny) (nx := nx) (dx := dx) (dy := dy) (ZiE := ZiE) hp hN 0 j
    have d : diffY ZiE dy 0 j = 0 := by
      rw [diffY, hs.surf 0 (j + 1), hs.surf (0 + 1) (j + 1), halo_south hj, addHalo_inside (by omega) hj,
        hs.inside 0 (by omega) j hj,
        hs.southCopy (by rcases hb with rfl | rfl <;> simp) (by rcases hb with rfl | rfl <;> simp) j hj]
      simp
    rw [e, d]; simp
  · obtain ⟨c, hc, e⟩ := flux_dir_y (we := we) (ea := ea) (so := so) (no := no) (flow := flow) (slide := slide)
      (ny := ny) (nx := nx) (dx := dx) (dy := dy) (ZiE := ZiE) hp hN ny j
    have d : diffY ZiE dy ny j = 0 := by
      rw [diffY, hs.surf (ny + 1) (j + 1), hs.surf ny (j + 1), halo_north hj,
        hs.northCopy (by rcases hb with rfl | rfl <;> simp) (by rcases hb with rfl | rfl <;> simp) j hj]
      obtain ⟨n, rfl⟩ : ∃ n, ny = n + 1 := ⟨ny - 1, by omega⟩
      rw [addHalo_inside (by omega) hj, hs.inside n (by omega) j hj]
      simp
    rw [e, d]; simp

/-- Borders with a constant slope: outside such a side the surface continues with the slope of the last two cells, or is
the bare bed if that is higher. -/
theorem C143_slope {ny nx : ℕ} {H Zb Zi : Grid} {west east south north : BC} {HE ZbE ZiE : Grid}
    (h : setBc ny nx H Zb Zi west east south north = .ok (HE, ZbE, ZiE)) (hy : 2 ≤ ny) (hx : 2 ≤ nx) {i j : ℕ}
    (hi : i < ny) (hj : j < nx) :
    (west = .surfSlope → ZiE (i + 1) 0 = max (Zi i 0 + (Zi i 0 - Zi i 1)) (Zb i 0)) ∧
    (east = .surfSlope →
      ZiE (i + 1) (nx + 1) = max (Zi i (nx - 1) + (Zi i (nx - 1) - Zi i (nx - 2))) (Zb i (nx - 1))) ∧
    (south = .surfSlope → ZiE 0 (j + 1) = max (Zi 0 j + (Zi 0 j - Zi 1 j)) (Zb 0 j)) ∧
    (north = .surfSlope →
      ZiE (ny + 1) (j + 1) = max (Zi (ny - 1) j + (Zi (ny - 1) j - Zi (ny - 2) j)) (Zb (ny - 1) j)) := by
  have hs := setBc_spec h
  refine ⟨fun hb => ?_, fun hb => ?_, fun hb => ?_, fun hb => ?_⟩
  · rw [hs.surf, hs.westSlope hb hx i hi, halo_west hi, ← max_add_add_left]
    congr 1 <;> ring
  · rw [hs.surf, hs.eastSlope hb hx i hi, halo_east hi, ← max_add_add_left]
    congr 1 <;> ring
  · rw [hs.surf, hs.southSlope hb hy j hj, halo_south hj, ← max_add_add_left]
    congr 1 <;> ring
  · rw [hs.surf, hs.northSlope hb hy j hj, halo_north hj, ← max_add_add_left]
    congr 1 <;> ring

/-- A border with a given elevation of the ice surface is never possible: the name used there does not exist. -/
theorem C143_elevation_violated (p : Params) (west east south north : BC) (flow slide : Bool) (ny nx : ℕ) (dx dy : ℝ)
    (H Zb Zi : Grid) (hb : west = .surfElev ∨ east = .surfElev ∨ south = .surfElev ∨ north = .surfElev) :
    motion p west east south north flow slide ny nx dx dy H Zb Zi = .error "NameError: Hbound" := by
  have key : setBc ny nx H Zb Zi west east south north = .error "NameError: Hbound" := by
    unfold setBc
    rcases hb with rfl | rfl | rfl | rfl
    · simp [bcCol]
    · cases west <;> simp [bcCol]
    · cases west <;> cases east <;> simp [bcCol, bcRow]
    · cases west <;> cases east <;> cases south <;> simp [bcCol, bcRow]
  unfold motion
  rw [key]

/-- The other five work. -/
theorem C143_accepted (p : Params) (west east south north : BC) (flow slide : Bool) (ny nx : ℕ) (dx dy : ℝ)
    (H Zb Zi : Grid) (h1 : west ≠ .surfElev) (h2 : east ≠ .surfElev) (h3 : south ≠ .surfElev)
    (h4 : north ≠ .surfElev) : ∃ mo, motion p west east south north flow slide ny nx dx dy H Zb Zi = .ok mo := by
  have hc : ∀ bc, bc ≠ BC.surfElev → ∀ j j1 j2 ZbE s, ∃ s', bcCol bc j j1 j2 ZbE s = .ok s' := by
    intro bc hb j j1 j2 ZbE s
    cases bc <;> first | contradiction | exact ⟨_, rfl⟩
  have hr : ∀ bc, bc ≠ BC.surfElev → ∀ j j1 j2 ZbE s, ∃ s', bcRow bc j j1 j2 ZbE s = .ok s' := by
    intro bc hb j j1 j2 ZbE s
    cases bc <;> first | contradiction | exact ⟨_, rfl⟩
  unfold motion setBc
  dsimp only
  obtain ⟨s1, e1⟩ := hc west h1 0 1 2 (addHalo ny nx Zb) (addHalo ny nx H, addHalo ny nx Zi)
  obtain ⟨s2, e2⟩ := hc east h2 (nx + 1) nx (nx - 1) (addHalo ny nx Zb) s1
  obtain ⟨s3, e3⟩ := hr south h3 0 1 2 (addHalo ny nx Zb) s2
  obtain ⟨s4, e4⟩ := hr north h4 (ny + 1) ny (ny - 1) (addHalo ny nx Zb) s3
  rw [e1]; dsimp only
  rw [e2]; dsimp only
  rw [e3]; dsimp only
  rw [e4]
  exact ⟨_, rfl⟩

/-! ### The update -/

/-- What a successful update has computed. -/
lemma update_spec {m : Module} {o : Opts} {ny nx : ℕ} {t dx dy c dt : ℝ} {H Zb : Grid} {r : Result}
    (h : update m o ny nx t H Zb dx dy c = .ok (dt, r)) :
    ∃ (mo : Motion) (B : Grid) (ela : ℝ),
      motion imported.par .iceFree .iceFree .iceFree .iceFree (o.iceflow.getD m.tog.iceflow)
        (o.iceslide.getD m.tog.iceslide) ny nx dx dy H Zb (surface H Zb) = .ok mo ∧
      massBalance m (surface H Zb) t = .ok (B, ela) ∧
      r = updateVars m.par ny nx H Zb B mo.qx mo.qy mo.dHdt t dt c dx ∧
      mo.dHdt = divergence dx dy mo.qx mo.qy := by
  unfold update at h
  dsimp only at h
  split at h
  · simp at h
  rename_i HE ZbE ZiE hb
  split at h
  · simp at h
  rename_i B ela hB
  split at h
  · simp at h
  split at h
  · simp at h
  rename_i dt' hdt
  simp only [Except.ok.injEq, Prod.mk.injEq] at h
  obtain ⟨rfl, rfl⟩ := h
  refine ⟨_, B, ela, ?_, hB, rfl, rfl⟩
  unfold motion
  change setBc ny nx H Zb (surface H Zb) .iceFree .iceFree .iceFree .iceFree = _ at hb
  rw [hb]
  rfl

lemma updateVars_H (p : Params) (ny nx : ℕ) (H Zb B qx qy dHdt : Grid) (t dt c dx : ℝ) (hdt : 0 < dt) (i j : ℕ) :
    (updateVars p ny nx H Zb B qx qy dHdt t dt c dx).H i j = max 0 (H i j + dt * (B i j + dHdt i j)) := by
  simp only [updateVars]
  have h1 : ∀ x y : ℝ, max (-x / dt) y * dt = max (-x) (y * dt) := fun x y => by
    rw [max_mul_of_nonneg _ _ hdt.le, div_mul_cancel₀ _ hdt.ne']
  rw [h1, ← max_add_add_left, add_neg_cancel]
  congr 1
  have : max 0 (B i j) + min 0 (B i j) = B i j := by rw [max_add_min]; simp
  calc _ = H i j + dt * ((max 0 (B i j) + min 0 (B i j)) + dHdt i j) := by ring
    _ = _ := by rw [this]

/-! ### C139: thickness and surface -/

/-- After a step the thickness of every cell is what snowfall, melting and motion make of it, but never negative; the
surface is the bed plus the thickness, and the time has advanced by the step. -/
theorem C139_step {m : Module} {o : Opts} {ny nx : ℕ} {t dx dy c dt : ℝ} {H Zb : Grid} {r : Result}
    (h : update m o ny nx t H Zb dx dy c = .ok (dt, r)) (hdt : 0 < dt) :
    ∃ (mo : Motion) (B : Grid) (ela : ℝ),
      motion imported.par .iceFree .iceFree .iceFree .iceFree (o.iceflow.getD m.tog.iceflow)
        (o.iceslide.getD m.tog.iceslide) ny nx dx dy H Zb (surface H Zb) = .ok mo ∧
      massBalance m (surface H Zb) t = .ok (B, ela) ∧
      (∀ i j, r.H i j = max 0 (H i j + dt * (B i j + mo.dHdt i j))) ∧
      (∀ i j, mo.dHdt i j = (mo.qx i j - mo.qx i (j + 1)) / dx + (mo.qy i j - mo.qy (i + 1) j) / dy) ∧
      (∀ i j, 0 ≤ r.H i j) ∧ (∀ i j, r.Zi i j = Zb i j + r.H i j) ∧ r.t = t + dt := by
  obtain ⟨mo, B, ela, h1, h2, rfl, h4⟩ := update_spec h
  have hH := fun i j => updateVars_H m.par ny nx H Zb B mo.qx mo.qy mo.dHdt t dt c dx hdt i j
  have h0 : ∀ i j, 0 ≤ (updateVars m.par ny nx H Zb B mo.qx mo.qy mo.dHdt t dt c dx).H i j := fun i j => by
    rw [hH]; exact le_max_left _ _
  refine ⟨mo, B, ela, h1, h2, hH, fun i j => ?_, h0, fun i j => ?_, rfl⟩
  · rw [h4, divergence]; ring
  · change Zb i j + max ((updateVars m.par ny nx H Zb B mo.qx mo.qy mo.dHdt t dt c dx).H i j) 0 = _
    rw [max_eq_left (h0 i j)]

lemma getTimestep_pos {dtMax dtDefault : ℝ} (h1 : 0 < dtMax) (h2 : 0 < dtDefault) {ny nx : ℕ} {H ZiE Zi dHdt B : Grid}
    {dt : ℝ} (h : getTimestep dtMax dtDefault ny nx H ZiE Zi dHdt B = .ok dt) : 0 < dt := by
  unfold getTimestep at h
  split at h
  · simp at h
  split at h
  · dsimp only at h
    split at h
    · rename_i hne
      simp only [Except.ok.injEq] at h
      rw [← h]
      refine lt_min h1 (half_pos ?_)
      rw [Finset.lt_inf'_iff]
      intro cl hcl
      simp only [limiting, Finset.mem_filter] at hcl
      obtain ⟨-, ha, hb, -⟩ := hcl
      have : 0 ≤ dHmax3 ZiE Zi cl.1 cl.2 := Real.sqrt_nonneg _
      have : 0 < dHmax3 ZiE Zi cl.1 cl.2 := lt_of_le_of_ne this (Ne.symm hb)
      have : 0 < |dHdt cl.1 cl.2 + B cl.1 cl.2| := lt_of_le_of_ne (abs_nonneg _) (Ne.symm ha)
      positivity
    · simp only [Except.ok.injEq] at h
      rw [← h]; exact h2
  · simp at h

lemma imported_dt : imported.par.dtMax = 0.40004 ∧ imported.par.dtDefault = 0.40004 := by
  constructor <;> norm_num [imported]

/-- Every step is positive, if the given ones are. -/
theorem C139_positive_step {m : Module} {o : Opts} {ny nx : ℕ} {t dx dy c dt : ℝ} {H Zb : Grid} {r : Result}
    (h : update m o ny nx t H Zb dx dy c = .ok (dt, r)) (h0 : 0 < o.dtDefault.getD m.par.dtDefault) : 0 < dt := by
  unfold update at h
  dsimp only at h
  split at h
  · simp at h
  split at h
  · simp at h
  split at h
  · simp at h
  split at h
  · simp at h
  rename_i dt' hdt
  simp only [Except.ok.injEq, Prod.mk.injEq] at h
  obtain ⟨rfl, -⟩ := h
  split at hdt
  · exact getTimestep_pos (by rw [imported_dt.1]; norm_num) (by rw [imported_dt.2]; norm_num) hdt
  · simp only [Except.ok.injEq] at hdt
    rw [← hdt]; exact h0

/-- A whole run keeps the thickness from becoming negative. -/
theorem C139_run {m : Module} (hm : 0 < m.par.dtDefault) {ny nx : ℕ} {Zb : Grid} {dx dy tMax : ℝ} :
    ∀ (fuel n : ℕ) (t : ℝ) (H : Grid) (c : ℝ) (n' : ℕ) (t' : ℝ) (H' : Grid) (c' : ℝ), (∀ i j, 0 ≤ H i j) →
      runLoop m ny nx Zb dx dy tMax fuel n (t, H, c) = some (.ok (n', t', H', c')) → ∀ i j, 0 ≤ H' i j := by
  intro fuel
  induction fuel with
  | zero => intro n t H c n' t' H' c' _ h; simp [runLoop] at h
  | succ fuel ih =>
    intro n t H c n' t' H' c' h0 h
    rw [runLoop] at h
    split at h
    · split at h
      · simp at h
      · rename_i dt r hu
        have hdt := C139_positive_step hu (by simpa using hm)
        obtain ⟨_, _, _, _, _, _, _, hr, _⟩ := C139_step hu hdt
        exact ih _ _ _ _ _ _ _ _ hr h
    · simp only [Option.some.injEq, Except.ok.injEq, Prod.mk.injEq] at h
      obtain ⟨_, _, rfl, _⟩ := h
      exact h0

/-! ### C140: the ice budget of a step -/

lemma total_divergence (ny nx : ℕ) (dx dy : ℝ) (qx qy : Grid) :
    total ny nx (divergence dx dy qx qy) =
      (∑ i ∈ range ny, (qx i 0 - qx i nx)) / dx + (∑ j ∈ range nx, (qy 0 j - qy ny j)) / dy := by
  unfold total divergence
  have e1 : ∀ i, ∑ j ∈ range nx, (-((qx i (j + 1) - qx i j) / dx) - (qy (i + 1) j - qy i j) / dy) =
      (qx i 0 - qx i nx) / dx - ∑ j ∈ range nx, (qy (i + 1) j - qy i j) / dy := by
    intro i
    rw [Finset.sum_sub_distrib, Finset.sum_neg_distrib, ← Finset.sum_div, Finset.sum_range_sub]
    ring
  simp_rw [e1]
  rw [Finset.sum_sub_distrib, ← Finset.sum_div, Finset.sum_comm]
  have e2 : ∀ j, ∑ i ∈ range ny, (qy (i + 1) j - qy i j) / dy = (qy ny j - qy 0 j) / dy := by
    intro j
    rw [← Finset.sum_div, Finset.sum_range_sub (fun i => qy i j)]
  simp_rw [e2]
  rw [← Finset.sum_div, sub_eq_add_neg, ← neg_div, ← Finset.sum_neg_distrib]
  simp

lemma cell_budget (H B dHdt : Grid) {dt : ℝ} (hdt : 0 < dt) (i j : ℕ) :
    max 0 (H i j + dt * (B i j + dHdt i j)) =
      H i j + dt * dHdt i j + snow B dt i j - melt H B dHdt dt i j + deficit H B dHdt dt i j := by
  unfold snow melt deficit before
  set a := H i j + dt * max 0 (B i j) + dt * dHdt i j with ha
  have e : H i j + dt * (B i j + dHdt i j) = a - dt * max 0 (-B i j) := by
    have : B i j = max 0 (B i j) - max 0 (-B i j) := by
      rcases le_total 0 (B i j) with h | h
      · rw [max_eq_right h, max_eq_left (by linarith)]; ring
      · rw [max_eq_left h, max_eq_right (by linarith)]; ring
    rw [ha]
    nlinarith [this]
  rw [e]
  have hm : 0 ≤ dt * max 0 (-B i j) := by positivity
  set mm := dt * max 0 (-B i j)
  have e2 : H i j + dt * dHdt i j + dt * max 0 (B i j) = a := by rw [ha]; ring
  rw [e2]
  rcases le_total 0 a with h | h
  · rw [max_eq_right h, max_eq_left (by linarith : -a ≤ 0)]
    rcases le_total a mm with h' | h'
    · rw [min_eq_left h', max_eq_left (by linarith)]; ring
    · rw [min_eq_right h', max_eq_right (by linarith)]; ring
  · rw [max_eq_left h, max_eq_right (by linarith : 0 ≤ -a), min_eq_left hm, max_eq_left (by linarith)]; ring

/-- The exact ice budget of a step on any grid: the change of the ice is snowfall minus melting plus what crosses the
border, plus the ice that motion took from cells that did not have it. -/
theorem C140_budget {m : Module} {o : Opts} {ny nx : ℕ} {t dx dy c dt : ℝ} {H Zb : Grid} {r : Result}
    (h : update m o ny nx t H Zb dx dy c = .ok (dt, r)) (hdt : 0 < dt) :
    ∃ (mo : Motion) (B : Grid) (ela : ℝ),
      motion imported.par .iceFree .iceFree .iceFree .iceFree (o.iceflow.getD m.tog.iceflow)
        (o.iceslide.getD m.tog.iceslide) ny nx dx dy H Zb (surface H Zb) = .ok mo ∧
      massBalance m (surface H Zb) t = .ok (B, ela) ∧
      total ny nx r.H - total ny nx H =
        total ny nx (snow B dt) - total ny nx (melt H B mo.dHdt dt) + dt * (inX ny nx mo / dx + inY ny nx mo / dy) +
          total ny nx (deficit H B mo.dHdt dt) := by
  obtain ⟨mo, B, ela, h1, h2, h3, _⟩ := C139_step h hdt
  obtain ⟨mo', B', ela', h1', h2', -, h4⟩ := update_spec h
  rw [h1] at h1'
  simp only [Except.ok.injEq] at h1'
  subst h1'
  refine ⟨mo, B, ela, h1, h2, ?_⟩
  have e := total_divergence ny nx dx dy mo.qx mo.qy
  rw [← h4] at e
  rw [inX, inY, ← e]
  unfold total
  simp_rw [h3, cell_budget H B mo.dHdt hdt, Finset.sum_add_distrib, Finset.sum_sub_distrib, Finset.sum_add_distrib,
    Finset.mul_sum]
  ring

/-- If motion takes from no cell more than it has, ice is conserved: the change is snowfall minus melting plus what
crosses the border. -/
theorem C140_conserved_partial {m : Module} {o : Opts} {ny nx : ℕ} {t dx dy c dt : ℝ} {H Zb : Grid} {r : Result}
    (h : update m o ny nx t H Zb dx dy c = .ok (dt, r)) (hdt : 0 < dt) {mo : Motion} {B : Grid} {ela : ℝ}
    (h1 : motion imported.par .iceFree .iceFree .iceFree .iceFree (o.iceflow.getD m.tog.iceflow)
        (o.iceslide.getD m.tog.iceslide) ny nx dx dy H Zb (surface H Zb) = .ok mo)
    (h2 : massBalance m (surface H Zb) t = .ok (B, ela))
    (hd : ∀ i < ny, ∀ j < nx, 0 ≤ H i j + dt * max 0 (B i j) + dt * mo.dHdt i j) :
    total ny nx r.H - total ny nx H =
        total ny nx (snow B dt) - total ny nx (melt H B mo.dHdt dt) + dt * (inX ny nx mo / dx + inY ny nx mo / dy) := by
  obtain ⟨mo', B', ela', h1', h2', e⟩ := C140_budget h hdt
  rw [h1] at h1'
  rw [h2] at h2'
  simp only [Except.ok.injEq, Prod.mk.injEq] at h1' h2'
  obtain ⟨rfl, rfl⟩ := h2'
  subst h1'
  rw [e]
  have : total ny nx (deficit H B mo.dHdt dt) = 0 := by
    unfold total
    refine Finset.sum_eq_zero fun i hi => Finset.sum_eq_zero fun j hj => ?_
    have := hd i (Finset.mem_range.1 hi) j (Finset.mem_range.1 hj)
    unfold deficit before
    exact max_eq_left (by linarith)
  rw [this, add_zero]

/-! ### C141: the running ice budget -/

/-- The exact difference between the running budget `conserveIce` and the ice: melting is counted with the wrong sign,
and what crosses the southern and northern borders is divided by the wrong cell size. -/
theorem C141_budget {m : Module} {o : Opts} {ny nx : ℕ} {t dx dy c dt : ℝ} {H Zb : Grid} {r : Result}
    (h : update m o ny nx t H Zb dx dy c = .ok (dt, r)) (hdt : 0 < dt) :
    ∃ (mo : Motion) (B : Grid) (ela : ℝ),
      motion imported.par .iceFree .iceFree .iceFree .iceFree (o.iceflow.getD m.tog.iceflow)
        (o.iceslide.getD m.tog.iceslide) ny nx dx dy H Zb (surface H Zb) = .ok mo ∧
      massBalance m (surface H Zb) t = .ok (B, ela) ∧
      r.conserveIce - c = total ny nx r.H - total ny nx H +
        2 * (total ny nx (melt H B mo.dHdt dt) - total ny nx (deficit H B mo.dHdt dt)) +
        dt * inY ny nx mo * (1 / dx - 1 / dy) := by
  obtain ⟨mo, B, ela, h1, h2, e⟩ := C140_budget h hdt
  obtain ⟨mo', B', ela', h1', h2', h3, -⟩ := update_spec h
  rw [h1] at h1'
  rw [h2] at h2'
  simp only [Except.ok.injEq, Prod.mk.injEq] at h1' h2'
  obtain ⟨rfl, rfl⟩ := h2'
  subst h1'
  refine ⟨mo, B, ela, h1, h2, ?_⟩
  rw [e, h3]
  simp only [updateVars]
  have cell : ∀ i j, (-max (-(H i j + max 0 (B i j) * dt + mo.dHdt i j * dt) / dt) (min 0 (B i j)) + max 0 (B i j)) * dt
      = snow B dt i j + melt H B mo.dHdt dt i j - deficit H B mo.dHdt dt i j := by
    intro i j
    have e0 := updateVars_H m.par ny nx H Zb B mo.qx mo.qy mo.dHdt t dt c dx hdt i j
    rw [cell_budget H B mo.dHdt hdt] at e0
    simp only [updateVars] at e0
    unfold snow at e0 ⊢
    linarith
  simp_rw [cell]
  unfold inX inY total
  simp_rw [Finset.sum_sub_distrib, Finset.sum_add_distrib]
  ring

/-- On square cells, if motion takes from no cell more than it has and nothing melts, the running budget is the ice. -/
theorem C141_no_melt_partial {m : Module} {o : Opts} {ny nx : ℕ} {t dx c dt : ℝ} {H Zb : Grid} {r : Result}
    (h : update m o ny nx t H Zb dx dx c = .ok (dt, r)) (hdt : 0 < dt) {mo : Motion} {B : Grid} {ela : ℝ}
    (h1 : motion imported.par .iceFree .iceFree .iceFree .iceFree (o.iceflow.getD m.tog.iceflow)
        (o.iceslide.getD m.tog.iceslide) ny nx dx dx H Zb (surface H Zb) = .ok mo)
    (h2 : massBalance m (surface H Zb) t = .ok (B, ela))
    (hd : ∀ i < ny, ∀ j < nx, 0 ≤ H i j + dt * max 0 (B i j) + dt * mo.dHdt i j)
    (hB : ∀ i < ny, ∀ j < nx, 0 ≤ B i j) :
    r.conserveIce - c = total ny nx r.H - total ny nx H := by
  obtain ⟨mo', B', ela', h1', h2', e⟩ := C141_budget h hdt
  rw [h1] at h1'
  rw [h2] at h2'
  simp only [Except.ok.injEq, Prod.mk.injEq] at h1' h2'
  obtain ⟨rfl, rfl⟩ := h2'
  subst h1'
  rw [e]
  have a1 : total ny nx (deficit H B mo.dHdt dt) = 0 := by
    unfold total
    refine Finset.sum_eq_zero fun i hi => Finset.sum_eq_zero fun j hj => ?_
    have := hd i (Finset.mem_range.1 hi) j (Finset.mem_range.1 hj)
    unfold deficit before
    exact max_eq_left (by linarith)
  have a2 : total ny nx (melt H B mo.dHdt dt) = 0 := by
    unfold total
    refine Finset.sum_eq_zero fun i hi => Finset.sum_eq_zero fun j hj => ?_
    have := hB i (Finset.mem_range.1 hi) j (Finset.mem_range.1 hj)
    unfold melt
    rw [max_eq_left (by linarith : -B i j ≤ 0), mul_zero]
    exact min_eq_right (le_max_left _ _)
  rw [a1, a2]; ring

/-- On square cells, if motion takes from no cell more than it has and ice melts anywhere, the running budget is larger
than the ice, by twice what melted. -/
theorem C141_melt_violated {m : Module} {o : Opts} {ny nx : ℕ} {t dx c dt : ℝ} {H Zb : Grid} {r : Result}
    (h : update m o ny nx t H Zb dx dx c = .ok (dt, r)) (hdt : 0 < dt) {mo : Motion} {B : Grid} {ela : ℝ}
    (h1 : motion imported.par .iceFree .iceFree .iceFree .iceFree (o.iceflow.getD m.tog.iceflow)
        (o.iceslide.getD m.tog.iceslide) ny nx dx dx H Zb (surface H Zb) = .ok mo)
    (h2 : massBalance m (surface H Zb) t = .ok (B, ela))
    (hd : ∀ i < ny, ∀ j < nx, 0 ≤ H i j + dt * max 0 (B i j) + dt * mo.dHdt i j) {i j : ℕ} (hi : i < ny) (hj : j < nx)
    (hB : B i j < 0) (hH : 0 < H i j + dt * mo.dHdt i j) :
    total ny nx r.H - total ny nx H < r.conserveIce - c ∧
      r.conserveIce - c = total ny nx r.H - total ny nx H + 2 * total ny nx (melt H B mo.dHdt dt) := by
  obtain ⟨mo', B', ela', h1', h2', e⟩ := C141_budget h hdt
  rw [h1] at h1'
  rw [h2] at h2'
  simp only [Except.ok.injEq, Prod.mk.injEq] at h1' h2'
  obtain ⟨rfl, rfl⟩ := h2'
  subst h1'
  have a1 : total ny nx (deficit H B mo.dHdt dt) = 0 := by
    unfold total
    refine Finset.sum_eq_zero fun i hi => Finset.sum_eq_zero fun j hj => ?_
    have := hd i (Finset.mem_range.1 hi) j (Finset.mem_range.1 hj)
    unfold deficit before
    exact max_eq_left (by linarith)
  have hm : ∀ i j, 0 ≤ melt H B mo.dHdt dt i j := fun i j => by
    unfold melt
    exact le_min (le_max_left _ _) (by positivity)
  have a2 : 0 < total ny nx (melt H B mo.dHdt dt) := by
    unfold total
    refine Finset.sum_pos' (fun i _ => Finset.sum_nonneg fun j _ => hm i j) ⟨i, Finset.mem_range.2 hi, ?_⟩
    refine Finset.sum_pos' (fun j _ => hm i j) ⟨j, Finset.mem_range.2 hj, ?_⟩
    unfold melt before
    refine lt_min (lt_max_of_lt_right ?_) ?_
    · rw [max_eq_left hB.le]; linarith
    · have : 0 < max 0 (-B i j) := lt_max_of_lt_right (by linarith)
      positivity
  rw [a1] at e
  constructor
  · rw [e]
    have : dt * inY ny nx mo * (1 / dx - 1 / dx) = 0 := by ring
    linarith
  · rw [e]; ring

/-! ### C147: the melt rate -/

/-- The melt rate is the thickness that melted in the step as water per second: it is zero where the climate does not
melt ice, never negative, and never more than what there is. -/
theorem C147_melt_rate {m : Module} {o : Opts} {ny nx : ℕ} {t dx dy c dt : ℝ} {H Zb : Grid} {r : Result}
    (h : update m o ny nx t H Zb dx dy c = .ok (dt, r)) (hdt : 0 < dt) (hI : 0 < m.par.rhoI) (hW : 0 < m.par.rhoW)
    (hs : 0 < m.par.secPerYear) :
    ∃ (mo : Motion) (B : Grid) (ela : ℝ),
      motion imported.par .iceFree .iceFree .iceFree .iceFree (o.iceflow.getD m.tog.iceflow)
        (o.iceslide.getD m.tog.iceslide) ny nx dx dy H Zb (surface H Zb) = .ok mo ∧
      massBalance m (surface H Zb) t = .ok (B, ela) ∧
      (∀ i j, r.meltrate i j * (dt * m.par.secPerYear) * m.par.rhoW = melt H B mo.dHdt dt i j * m.par.rhoI) ∧
      (∀ i j, 0 ≤ r.meltrate i j) ∧ (∀ i j, 0 ≤ B i j → r.meltrate i j = 0) := by
  obtain ⟨mo, B, ela, h1, h2, rfl, -⟩ := update_spec h
  have key : ∀ i j, (updateVars m.par ny nx H Zb B mo.qx mo.qy mo.dHdt t dt c dx).meltrate i j *
      (dt * m.par.secPerYear) * m.par.rhoW = melt H B mo.dHdt dt i j * m.par.rhoI := by
    intro i j
    simp only [updateVars]
    unfold melt before
    have ea : H i j + max 0 (B i j) * dt + mo.dHdt i j * dt = H i j + dt * max 0 (B i j) + dt * mo.dHdt i j := by ring
    rw [ea]
    set a := H i j + dt * max 0 (B i j) + dt * mo.dHdt i j
    have e1 : -(max (-a / dt) (min 0 (B i j)) * dt / dt) = min (a / dt) (max 0 (-B i j)) := by
      rw [mul_div_cancel_right₀ _ hdt.ne']
      rcases le_total 0 (B i j) with hb | hb
      · rw [min_eq_left hb, max_eq_left (by linarith : -B i j ≤ 0)]
        rcases le_total 0 a with h0 | h0
        · rw [max_eq_right (by rw [neg_div]; have : 0 ≤ a / dt := by positivity
                               linarith), min_eq_right (by positivity)]; ring
        · have : a / dt ≤ 0 := div_nonpos_of_nonpos_of_nonneg h0 hdt.le
          rw [max_eq_left (by rw [neg_div]; linarith), min_eq_left this]; ring
      · rw [min_eq_right hb, max_eq_right (by linarith : 0 ≤ -B i j)]
        rcases le_total (a / dt) (-B i j) with h0 | h0
        · rw [max_eq_left (by rw [neg_div]; linarith), min_eq_left h0]; ring
        · rw [max_eq_right (by rw [neg_div]; linarith), min_eq_right h0]
    rw [e1]
    have e2 : dt * max 0 (-B i j) = dt * max 0 (-B i j) := rfl
    have e3 : min (max 0 a) (dt * max 0 (-B i j)) = dt * max (min (a / dt) (max 0 (-B i j))) 0 := by
      have hmb : 0 ≤ max 0 (-B i j) := le_max_left _ _
      rcases le_total 0 a with h0 | h0
      · have : 0 ≤ a / dt := by positivity
        rw [max_eq_right h0, max_eq_left (le_min this hmb), mul_min_of_nonneg _ _ hdt.le, mul_div_cancel₀ _ hdt.ne']
      · have : a / dt ≤ 0 := div_nonpos_of_nonpos_of_nonneg h0 hdt.le
        rw [max_eq_left h0, max_eq_right (le_trans (min_le_left _ _) this), min_eq_left (by positivity)]; ring
    rw [e3]
    have e4 : max (min (a / dt) (max 0 (-B i j)) * (m.par.rhoI / m.par.rhoW) / m.par.secPerYear) 0 =
        max (min (a / dt) (max 0 (-B i j))) 0 * (m.par.rhoI / m.par.rhoW / m.par.secPerYear) := by
      rw [max_mul_of_nonneg _ _ (by positivity), zero_mul]
      congr 1; ring
    rw [e4]
    field_simp
  have nn : ∀ i j, 0 ≤ (updateVars m.par ny nx H Zb B mo.qx mo.qy mo.dHdt t dt c dx).meltrate i j := fun i j => by
    simp only [updateVars]; exact le_max_right _ _
  refine ⟨mo, B, ela, h1, h2, key, nn, fun i j hb => ?_⟩
  have k := key i j
  have : melt H B mo.dHdt dt i j = 0 := by
    unfold melt
    rw [max_eq_left (by linarith : -B i j ≤ 0), mul_zero]
    exact min_eq_right (le_max_left _ _)
  rw [this, zero_mul] at k
  have hne : dt * m.par.secPerYear ≠ 0 := by positivity
  rcases mul_eq_zero.1 k with k | k
  · rcases mul_eq_zero.1 k with k | k
    · exact k
    · exact absurd k hne
  · exact absurd k hW.ne'

end Ice
