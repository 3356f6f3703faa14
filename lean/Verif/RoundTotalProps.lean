import Verif.RoundTotalModel
import Verif.RoundProps

/-!
# C267: the mass totals in floating point arithmetic
-/

set_option autoImplicit false

/-! ## Specification -/

namespace RoundTotalSpec

open RoundTotal

/-- The cells in the order of a tree. -/
def leaves {α : Type*} : AddOrder α → List α
  | .leaf x => [x]
  | .node a b => leaves a ++ leaves b

/-- The largest number of additions that a value takes part in. -/
def depth {α : Type*} : AddOrder α → ℕ
  | .leaf _ => 0
  | .node a b => max (depth a) (depth b) + 1

variable {K : Type*} [Field K]

/-- The volume of water that an update stands for, without rounding. -/
def exactVolume (n : ℕ) (dt : K) : Added K → K
  | .one rate area => n * (rate * area * dt)
  | .cells t => ((leaves t).map (fun c => c.1 * c.2 * dt)).sum
  | .flow q => q * dt

/-- The volume of all updates. -/
def exactTotal (n : ℕ) (dt : K) (l : List (Added K)) : K := (l.map (exactVolume n dt)).sum

/-- The number of cell volumes in an update. -/
def count (n : ℕ) : Added K → ℕ
  | .one _ _ => n + 1
  | .cells t => (leaves t).length
  | .flow _ => 1

/-- The number of roundings after the volumes of the cells, before the total. -/
def Shallow (D : ℕ) : Added K → Prop
  | .one _ _ => 1 ≤ D
  | .cells t => depth t ≤ D
  | .flow _ => True

/-- Rates, areas and discharges are not negative. -/
def NonNeg [LE K] : Added K → Prop
  | .one rate area => 0 ≤ rate ∧ 0 ≤ area
  | .cells t => ∀ c ∈ leaves t, 0 ≤ c.1 ∧ 0 ≤ c.2
  | .flow q => 0 ≤ q

end RoundTotalSpec

namespace RoundTotal

open Round RoundTotalSpec

variable {K : Type*} [Field K] [LinearOrder K] [IsStrictOrderedRing K]

theorem leaves_map {α β : Type*} (f : α → β) (t : AddOrder α) : leaves (t.map f) = (leaves t).map f := by
  induction t with
  | leaf x => rfl
  | node a b iha ihb => simp [AddOrder.map, leaves, iha, ihb]

theorem depth_map {α β : Type*} (f : α → β) (t : AddOrder α) : depth (t.map f) = depth t := by
  induction t with
  | leaf x => rfl
  | node a b iha ihb => simp [AddOrder.map, depth, iha, ihb]

/-- Every order of addition has at most as many levels as there are cells. -/
theorem depth_lt {α : Type*} (t : AddOrder α) : depth t < (leaves t).length := by
  induction t with
  | leaf x => simp [depth, leaves]
  | node a b iha ihb =>
    simp only [depth, leaves, List.length_append]
    omega

section

variable (R : Rounding K)

theorem one_sub_nonneg : 0 ≤ 1 - R.u := by
  have := R.u_small
  linarith

/-- Any order of addition of numbers that are not negative. -/
theorem sum_bounds (t : AddOrder K) (h : ∀ x ∈ leaves t, 0 ≤ x ∧ R.rnd x = x) :
    R.rnd (t.sum R.rnd) = t.sum R.rnd ∧
    (leaves t).sum * (1 - R.u) ^ depth t ≤ t.sum R.rnd ∧
    t.sum R.rnd ≤ (leaves t).sum * (1 + R.u) ^ depth t ∧ 0 ≤ (leaves t).sum ∧ 0 ≤ t.sum R.rnd := by
  induction t with
  | leaf x =>
    have := h x (by simp [leaves])
    simp [AddOrder.sum, leaves, depth, this.2, this.1]
  | node a b iha ihb =>
    obtain ⟨fa, la, ua, pa, qa⟩ := iha (fun x hx => h x (by simp [leaves, hx]))
    obtain ⟨fb, lb, ub, pb, qb⟩ := ihb (fun x hx => h x (by simp [leaves, hx]))
    have hu0 := R.u_nonneg
    have hu1 := one_sub_nonneg R
    have hadd := R.add_err _ _ fa fb
    rw [abs_of_nonneg (add_nonneg qa qb)] at hadd
    obtain ⟨h1, h2⟩ := abs_le.1 hadd
    simp only [AddOrder.sum, leaves, depth, List.sum_append]
    generalize a.sum R.rnd = x at *
    generalize b.sum R.rnd = y at *
    generalize (leaves a).sum = A at *
    generalize (leaves b).sum = B at *
    refine ⟨R.idem _, ?_, ?_, add_nonneg pa pb, R.nonneg (add_nonneg qa qb)⟩
    · have ha : A * (1 - R.u) ^ max (depth a) (depth b) ≤ x :=
        (mul_le_mul_of_nonneg_left (pow_le_pow_of_le_one hu1 (by linarith) (le_max_left _ _)) pa).trans la
      have hb : B * (1 - R.u) ^ max (depth a) (depth b) ≤ y :=
        (mul_le_mul_of_nonneg_left (pow_le_pow_of_le_one hu1 (by linarith) (le_max_right _ _)) pb).trans lb
      have := mul_le_mul_of_nonneg_right (add_le_add ha hb) hu1
      calc (A + B) * (1 - R.u) ^ (max (depth a) (depth b) + 1)
          = (A * (1 - R.u) ^ max (depth a) (depth b) + B * (1 - R.u) ^ max (depth a) (depth b)) *
            (1 - R.u) := by ring
        _ ≤ (x + y) * (1 - R.u) := this
        _ ≤ _ := by linarith
    · have ha : x ≤ A * (1 + R.u) ^ max (depth a) (depth b) :=
        ua.trans (mul_le_mul_of_nonneg_left (pow_le_pow_right₀ (by linarith) (le_max_left _ _)) pa)
      have hb : y ≤ B * (1 + R.u) ^ max (depth a) (depth b) :=
        ub.trans (mul_le_mul_of_nonneg_left (pow_le_pow_right₀ (by linarith) (le_max_right _ _)) pb)
      have := mul_le_mul_of_nonneg_right (add_le_add ha hb) (show 0 ≤ 1 + R.u by linarith)
      calc R.rnd (x + y) ≤ (x + y) * (1 + R.u) := by linarith
        _ ≤ _ := this
        _ = _ := by ring

/-- The volume of a cell. -/
theorem volume_bounds {dt rate area : K} (hdt : 0 ≤ dt) (hr : 0 ≤ rate) (ha : 0 ≤ area) :
    0 ≤ volume R.rnd dt rate area ∧
    R.rnd (volume R.rnd dt rate area) = volume R.rnd dt rate area ∧
    rate * area * dt * (1 - R.u) ^ 2 - 2 * (dt + 1) * R.η ≤ volume R.rnd dt rate area ∧
    volume R.rnd dt rate area ≤ rate * area * dt * (1 + R.u) ^ 2 + 2 * (dt + 1) * R.η := by
  have hu0 := R.u_nonneg
  have hu1 := R.u_small
  have hη := R.η_nonneg
  have h0 : 0 ≤ rate * area := mul_nonneg hr ha
  have l1 := R.ge_of h0
  have u1 := R.le_of h0
  have p1 := R.nonneg h0
  unfold volume
  generalize R.rnd (rate * area) = x at *
  generalize rate * area = w at *
  have p2 : 0 ≤ x * dt := mul_nonneg p1 hdt
  have l2 := R.ge_of p2
  have u2 := R.le_of p2
  have l3 := mul_le_mul_of_nonneg_right (mul_le_mul_of_nonneg_right l1 hdt) (one_sub_nonneg R)
  have u3 := mul_le_mul_of_nonneg_right (mul_le_mul_of_nonneg_right u1 hdt)
    (show 0 ≤ 1 + R.u by linarith)
  have e : 0 ≤ dt * R.η := mul_nonneg hdt hη
  have e1 : 0 ≤ R.u * (dt * R.η) := mul_nonneg hu0 e
  have e2 : R.u * (dt * R.η) ≤ 1 / 64 * (dt * R.η) := mul_le_mul_of_nonneg_right hu1 e
  refine ⟨R.nonneg p2, R.idem _, ?_, ?_⟩
  · nlinarith
  · nlinarith

theorem list_bounds {α : Type*} (l : List α) (f g : α → K) (a e : K)
    (h : ∀ x ∈ l, g x * a - e ≤ f x) : (l.map g).sum * a - l.length * e ≤ (l.map f).sum := by
  induction l with
  | nil => simp
  | cons x l ih =>
    have h1 := h x List.mem_cons_self
    have h2 := ih (fun y hy => h y (List.mem_cons_of_mem _ hy))
    simp only [List.map_cons, List.sum_cons, List.length_cons, Nat.cast_add, Nat.cast_one]
    linarith

theorem list_bounds' {α : Type*} (l : List α) (f g : α → K) (a e : K)
    (h : ∀ x ∈ l, f x ≤ g x * a + e) : (l.map f).sum ≤ (l.map g).sum * a + l.length * e := by
  induction l with
  | nil => simp
  | cons x l ih =>
    have h1 := h x List.mem_cons_self
    have h2 := ih (fun y hy => h y (List.mem_cons_of_mem _ hy))
    simp only [List.map_cons, List.sum_cons, List.length_cons, Nat.cast_add, Nat.cast_one]
    linarith

/-- What one update adds. -/
theorem added_bounds (n D : ℕ) {dt : K} (hdt : 0 ≤ dt) (a : Added K) (h : NonNeg a)
    (hD : Shallow D a) :
    0 ≤ addedVolume R.rnd n dt a ∧ R.rnd (addedVolume R.rnd n dt a) = addedVolume R.rnd n dt a ∧
    (exactVolume n dt a * (1 - R.u) ^ 2 - count n a * (2 * (dt + 1) * R.η)) * (1 - R.u) ^ D ≤
      addedVolume R.rnd n dt a ∧
    addedVolume R.rnd n dt a ≤
      (exactVolume n dt a * (1 + R.u) ^ 2 + count n a * (2 * (dt + 1) * R.η)) * (1 + R.u) ^ D := by
  have hu0 := R.u_nonneg
  have hu1 := R.u_small
  have hη := R.η_nonneg
  have hs := one_sub_nonneg R
  have hE : 0 ≤ 2 * (dt + 1) * R.η := by positivity
  have pl : ∀ {k : ℕ}, k ≤ D → ∀ {v a : K}, 0 ≤ v → a ≤ v →
      a * (1 - R.u) ^ D ≤ v * (1 - R.u) ^ k := by
    intro k hk v a hv ha
    calc a * (1 - R.u) ^ D ≤ v * (1 - R.u) ^ D := mul_le_mul_of_nonneg_right ha (pow_nonneg hs _)
      _ ≤ _ := mul_le_mul_of_nonneg_left (pow_le_pow_of_le_one hs (by linarith) hk) hv
  have pu : ∀ {k : ℕ}, k ≤ D → ∀ {v a : K}, 0 ≤ v → v ≤ a →
      v * (1 + R.u) ^ k ≤ a * (1 + R.u) ^ D := by
    intro k hk v a hv ha
    calc v * (1 + R.u) ^ k ≤ v * (1 + R.u) ^ D :=
          mul_le_mul_of_nonneg_left (pow_le_pow_right₀ (by linarith) hk) hv
      _ ≤ _ := mul_le_mul_of_nonneg_right ha (by positivity)
  cases a with
  | one rate area =>
    obtain ⟨v0, vf, vl, vu⟩ := volume_bounds R hdt h.1 h.2
    have hn : (0 : K) ≤ n := Nat.cast_nonneg n
    have p := mul_nonneg v0 hn
    have hD : 1 ≤ D := hD
    have l1 := R.ge_of p
    have u1 := R.le_of p
    simp only [addedVolume, exactVolume, count]
    generalize volume R.rnd dt rate area = v at *
    generalize rate * area * dt = w at *
    have hηE : R.η ≤ 2 * (dt + 1) * R.η := by nlinarith
    refine ⟨R.nonneg p, R.idem _, ?_, ?_⟩
    · have k1 : (n : K) * w * (1 - R.u) ^ 2 - (n : K) * (2 * (dt + 1) * R.η) ≤ v * n := by
        have := mul_le_mul_of_nonneg_right vl hn
        linarith
      have k2 := pl hD p k1
      have k3 : (2 * (dt + 1) * R.η) * (1 - R.u) ^ D ≥ 0 := by
        have := pow_nonneg hs D
        positivity
      by_cases hc : (n : K) * w * (1 - R.u) ^ 2 - ((n + 1 : ℕ) : K) * (2 * (dt + 1) * R.η) ≤ 0
      · exact (mul_nonpos_of_nonpos_of_nonneg hc (pow_nonneg hs D)).trans (R.nonneg p)
      · push Not at hc
        have k4 : ((n : K) * w * (1 - R.u) ^ 2 - ((n + 1 : ℕ) : K) * (2 * (dt + 1) * R.η)) *
            (1 - R.u) ^ D ≤ ((n : K) * w * (1 - R.u) ^ 2 - ((n + 1 : ℕ) : K) * (2 * (dt + 1) * R.η)) *
            (1 - R.u) ^ 1 :=
          mul_le_mul_of_nonneg_left (pow_le_pow_of_le_one hs (by linarith) hD) hc.le
        refine k4.trans ?_
        push_cast
        have k5 := mul_le_mul_of_nonneg_right k1 hs
        have k6 : R.η ≤ (2 * (dt + 1) * R.η) * (1 - R.u) := by
          have : 0 ≤ dt * R.η := mul_nonneg hdt hη
          have e2 : R.u * (dt * R.η) ≤ 1 / 64 * (dt * R.η) := mul_le_mul_of_nonneg_right hu1 this
          have e3 : R.u * R.η ≤ 1 / 64 * R.η := mul_le_mul_of_nonneg_right hu1 hη
          nlinarith
        rw [pow_one]
        linarith
    · have k1 : v * n ≤ (n : K) * w * (1 + R.u) ^ 2 + (n : K) * (2 * (dt + 1) * R.η) := by
        have := mul_le_mul_of_nonneg_right vu hn
        linarith
      have k2 := pu hD p k1
      have k3 : (2 * (dt + 1) * R.η) * 1 ≤ (2 * (dt + 1) * R.η) * (1 + R.u) ^ D :=
        mul_le_mul_of_nonneg_left (one_le_pow₀ (by linarith)) hE
      rw [pow_one] at k2
      push_cast
      linarith
  | cells t =>
    have hv : ∀ c ∈ leaves t, _ := fun c hc => volume_bounds R hdt (h c hc).1 (h c hc).2
    have hl := leaves_map (fun c : K × K => volume R.rnd dt c.1 c.2) t
    obtain ⟨s1, s2, s3, s4, s5⟩ := sum_bounds R (t.map (fun c => volume R.rnd dt c.1 c.2)) (by
      intro x hx
      rw [hl] at hx
      obtain ⟨c, hc, rfl⟩ := List.mem_map.1 hx
      exact ⟨(hv c hc).1, (hv c hc).2.1⟩)
    rw [hl, depth_map] at *
    simp only [addedVolume, exactVolume, count]
    have b1 := list_bounds (leaves t) (fun c => volume R.rnd dt c.1 c.2) (fun c => c.1 * c.2 * dt)
      ((1 - R.u) ^ 2) (2 * (dt + 1) * R.η) (fun c hc => (hv c hc).2.2.1)
    have b2 := list_bounds' (leaves t) (fun c => volume R.rnd dt c.1 c.2) (fun c => c.1 * c.2 * dt)
      ((1 + R.u) ^ 2) (2 * (dt + 1) * R.η) (fun c hc => (hv c hc).2.2.2)
    exact ⟨s5, s1, (pl hD s4 b1).trans s2, s3.trans (pu hD s4 b2)⟩
  | flow q =>
    have p : 0 ≤ q * dt := mul_nonneg h hdt
    have l1 := R.ge_of p
    have u1 := R.le_of p
    simp only [addedVolume, exactVolume, count, Nat.cast_one, one_mul]
    generalize q * dt = w at *
    refine ⟨R.nonneg p, R.idem _, ?_, ?_⟩
    · by_cases hc : w * (1 - R.u) ^ 2 - 2 * (dt + 1) * R.η ≤ 0
      · exact (mul_nonpos_of_nonpos_of_nonneg hc (pow_nonneg hs D)).trans (R.nonneg p)
      · push Not at hc
        have k1 := mul_le_mul_of_nonneg_left (pow_le_one₀ hs (by linarith) (n := D)) hc.le
        have k2 : w * (1 - R.u) ^ 2 ≤ w * (1 - R.u) :=
          mul_le_mul_of_nonneg_left (by nlinarith) p
        have k3 : R.η ≤ 2 * (dt + 1) * R.η := by nlinarith [mul_nonneg hdt hη]
        linarith
    · have k0 : 0 ≤ w * (1 + R.u) ^ 2 + 2 * (dt + 1) * R.η := by positivity
      have k1 := mul_le_mul_of_nonneg_left (one_le_pow₀ (show 1 ≤ 1 + R.u by linarith) (n := D)) k0
      have k2 : w * (1 + R.u) ≤ w * (1 + R.u) ^ 2 := mul_le_mul_of_nonneg_left (by nlinarith) p
      have k3 : R.η ≤ 2 * (dt + 1) * R.η := by nlinarith [mul_nonneg hdt hη]
      linarith

theorem total_float (n : ℕ) (dt v : K) (l : List (Added K)) (hv : R.rnd v = v) :
    R.rnd (total R.rnd n dt v l) = total R.rnd n dt v l := by
  induction l generalizing v with
  | nil => exact hv
  | cons a l ih => exact ih _ (R.idem _)

theorem total_append (n : ℕ) (dt v : K) (l : List (Added K)) (a : Added K) :
    total R.rnd n dt v (l ++ [a]) =
      R.rnd (total R.rnd n dt v l + addedVolume R.rnd n dt a) := by
  induction l generalizing v with
  | nil => rfl
  | cons b l ih => exact ih _

/-- **C267**: a total never decreases and is never negative. -/
theorem C267_never_decreases (n : ℕ) {dt : K} (hdt : 0 ≤ dt) (l : List (Added K)) (a : Added K)
    (h : ∀ b ∈ l ++ [a], NonNeg b) :
    0 ≤ total R.rnd n dt 0 l ∧ total R.rnd n dt 0 l ≤ total R.rnd n dt 0 (l ++ [a]) := by
  have hadd : ∀ b : Added K, NonNeg b → 0 ≤ addedVolume R.rnd n dt b := by
    intro b hb
    cases b with
    | one rate area => exact (added_bounds R n 1 hdt _ hb le_rfl).1
    | cells t => exact (added_bounds R n (depth t) hdt _ hb le_rfl).1
    | flow q => exact (added_bounds R n 0 hdt _ hb trivial).1
  have key : ∀ l : List (Added K), (∀ b ∈ l, NonNeg b) → 0 ≤ total R.rnd n dt 0 l := by
    intro l
    induction l using List.reverseRecOn with
    | nil => intro _; exact le_rfl
    | append_singleton l b ih =>
      intro hl
      rw [total_append]
      exact R.nonneg (add_nonneg (ih fun c hc => hl c (by simp [hc])) (hadd b (hl b (by simp))))
  refine ⟨key l fun b hb => h b (by simp [hb]), ?_⟩
  rw [total_append]
  have := R.mono _ _ (le_add_of_nonneg_right (a := total R.rnd n dt 0 l) (hadd a (h a (by simp))))
  rwa [total_float R n dt 0 l R.zero] at this

/-- **C267**: after any number `N` of updates a total is the volume of all updates, up to a relative
rounding error for each update, for each level of the addition over the cells, and for the two products
(and an absolute error at the smallest numbers of the format). -/
theorem C267_total (n D : ℕ) {dt : K} (hdt : 0 ≤ dt) (l : List (Added K))
    (h : ∀ a ∈ l, NonNeg a) (hD : ∀ a ∈ l, Shallow D a) :
    (exactTotal n dt l * (1 - R.u) ^ 2 - (l.map (count n)).sum * (2 * (dt + 1) * R.η)) *
        (1 - R.u) ^ (D + l.length) ≤ total R.rnd n dt 0 l ∧
    total R.rnd n dt 0 l ≤
      (exactTotal n dt l * (1 + R.u) ^ 2 + (l.map (count n)).sum * (2 * (dt + 1) * R.η)) *
        (1 + R.u) ^ (D + l.length) := by
  have hu0 := R.u_nonneg
  have hs := one_sub_nonneg R
  have hη := R.η_nonneg
  have hE : 0 ≤ 2 * (dt + 1) * R.η := by positivity
  have key : R.rnd (total R.rnd n dt 0 l) = total R.rnd n dt 0 l ∧ 0 ≤ total R.rnd n dt 0 l ∧
      0 ≤ (l.map (addedVolume R.rnd n dt)).sum ∧
      (l.map (addedVolume R.rnd n dt)).sum * (1 - R.u) ^ l.length ≤ total R.rnd n dt 0 l ∧
      total R.rnd n dt 0 l ≤ (l.map (addedVolume R.rnd n dt)).sum * (1 + R.u) ^ l.length := by
    induction l using List.reverseRecOn with
    | nil => simp [total, R.zero]
    | append_singleton l b ih =>
      obtain ⟨i1, i2, i3, i4, i5⟩ := ih (fun a ha => h a (by simp [ha])) (fun a ha => hD a (by simp [ha]))
      obtain ⟨b1, b2, -, -⟩ := added_bounds R n D hdt b (h b (by simp)) (hD b (by simp))
      have he := R.add_err _ _ i1 b2
      rw [abs_of_nonneg (add_nonneg i2 b1)] at he
      obtain ⟨e1, e2⟩ := abs_le.1 he
      rw [total_append, List.map_append, List.sum_append, List.length_append]
      simp only [List.map_cons, List.map_nil, List.sum_cons, List.sum_nil, add_zero,
        List.length_cons, List.length_nil, zero_add]
      generalize total R.rnd n dt 0 l = v at *
      generalize addedVolume R.rnd n dt b = w at *
      generalize (l.map (addedVolume R.rnd n dt)).sum = S at *
      refine ⟨R.idem _, R.nonneg (add_nonneg i2 b1), add_nonneg i3 b1, ?_, ?_⟩
      · have h1 : w * (1 - R.u) ^ l.length ≤ w * 1 :=
          mul_le_mul_of_nonneg_left (pow_le_one₀ hs (by linarith)) b1
        have h2 := mul_le_mul_of_nonneg_right (add_le_add i4 h1) hs
        calc (S + w) * (1 - R.u) ^ (l.length + 1)
            = (S * (1 - R.u) ^ l.length + w * (1 - R.u) ^ l.length) * (1 - R.u) := by ring
          _ ≤ (v + w * 1) * (1 - R.u) := h2
          _ ≤ _ := by linarith
      · have h1 : w * 1 ≤ w * (1 + R.u) ^ l.length :=
          mul_le_mul_of_nonneg_left (one_le_pow₀ (by linarith)) b1
        have h2 := mul_le_mul_of_nonneg_right (add_le_add i5 h1) (show 0 ≤ 1 + R.u by linarith)
        calc R.rnd (v + w) ≤ (v + w * 1) * (1 + R.u) := by linarith
          _ ≤ (S * (1 + R.u) ^ l.length + w * (1 + R.u) ^ l.length) * (1 + R.u) := h2
          _ = _ := by ring
  have low : (exactTotal n dt l * (1 - R.u) ^ 2 - (l.map (count n)).sum * (2 * (dt + 1) * R.η)) *
      (1 - R.u) ^ D ≤ (l.map (addedVolume R.rnd n dt)).sum := by
    clear key
    unfold exactTotal
    induction l with
    | nil => simp
    | cons a l ih =>
      have i := ih (fun x hx => h x (List.mem_cons_of_mem _ hx)) (fun x hx => hD x (List.mem_cons_of_mem _ hx))
      have b := (added_bounds R n D hdt a (h a List.mem_cons_self) (hD a List.mem_cons_self)).2.2.1
      simp only [List.map_cons, List.sum_cons, Nat.cast_add]
      linarith
  have upp : (l.map (addedVolume R.rnd n dt)).sum ≤
      (exactTotal n dt l * (1 + R.u) ^ 2 + (l.map (count n)).sum * (2 * (dt + 1) * R.η)) *
      (1 + R.u) ^ D := by
    clear key low
    unfold exactTotal
    induction l with
    | nil => simp
    | cons a l ih =>
      have i := ih (fun x hx => h x (List.mem_cons_of_mem _ hx)) (fun x hx => hD x (List.mem_cons_of_mem _ hx))
      have b := (added_bounds R n D hdt a (h a List.mem_cons_self) (hD a List.mem_cons_self)).2.2.2
      simp only [List.map_cons, List.sum_cons, Nat.cast_add]
      linarith
  obtain ⟨-, -, -, k4, k5⟩ := key
  constructor
  · have := mul_le_mul_of_nonneg_right low (pow_nonneg hs l.length)
    rw [mul_assoc, ← pow_add] at this
    exact this.trans k4
  · have := mul_le_mul_of_nonneg_right upp (pow_nonneg (show 0 ≤ 1 + R.u by linarith) l.length)
    rw [mul_assoc, ← pow_add] at this
    exact k5.trans this

end


theorem exactVolume_nonneg (n : ℕ) {dt : K} (hdt : 0 ≤ dt) (a : Added K) (h : NonNeg a) :
    0 ≤ exactVolume n dt a := by
  cases a with
  | one rate area =>
    have h1 : 0 ≤ rate := h.1
    have h2 : 0 ≤ area := h.2
    simp only [exactVolume]
    positivity
  | cells t =>
    refine List.sum_nonneg fun x hx => ?_
    obtain ⟨c, hc, rfl⟩ := List.mem_map.1 hx
    exact mul_nonneg (mul_nonneg (h c hc).1 (h c hc).2) hdt
  | flow q => exact mul_nonneg h hdt

/-- **C267**, the error of a total: at most `2 (N + D + 2)` relative roundings of the exact volume. -/
theorem C267_error (R : Rounding K) (n D : ℕ) {dt : K} (hdt : 0 ≤ dt) (l : List (Added K))
    (h : ∀ a ∈ l, NonNeg a) (hD : ∀ a ∈ l, Shallow D a)
    (hk : 2 * ((l.length + D + 2 : ℕ) : K) * R.u ≤ 1) :
    |total R.rnd n dt 0 l - exactTotal n dt l| ≤
      2 * ((l.length + D + 2 : ℕ) : K) * R.u * exactTotal n dt l +
        4 * (dt + 1) * (l.map (count n)).sum * R.η := by
  have hu0 := R.u_nonneg
  have hu1 := R.u_small
  have hs := one_sub_nonneg R
  have hη := R.η_nonneg
  obtain ⟨lo, up⟩ := C267_total R n D hdt l h hD
  have hE : 0 ≤ exactTotal n dt l := by
    refine List.sum_nonneg fun x hx => ?_
    obtain ⟨a, ha, rfl⟩ := List.mem_map.1 hx
    exact exactVolume_nonneg n hdt a (h a ha)
  have hc : 0 ≤ ((l.map (count n)).sum : K) * (2 * (dt + 1) * R.η) := by positivity
  have hpow := one_add_pow R.u hu0 (l.length + D + 2) hk
  have hpow' := one_sub_pow R.u hu0 (by linarith) (l.length + D + 2)
  have e1 : (1 + R.u) ^ 2 * (1 + R.u) ^ (D + l.length) = (1 + R.u) ^ (l.length + D + 2) := by
    rw [← pow_add]; congr 1; omega
  have e2 : (1 - R.u) ^ 2 * (1 - R.u) ^ (D + l.length) = (1 - R.u) ^ (l.length + D + 2) := by
    rw [← pow_add]; congr 1; omega
  have q1 : (1 + R.u) ^ (D + l.length) ≤ 2 := by
    have : (1 + R.u) ^ (D + l.length) ≤ (1 + R.u) ^ (l.length + D + 2) :=
      pow_le_pow_right₀ (by linarith) (by omega)
    linarith
  have q2 : (1 - R.u) ^ (D + l.length) ≤ 1 := pow_le_one₀ hs (by linarith)
  have q3 : 0 ≤ (1 - R.u) ^ (D + l.length) := pow_nonneg hs _
  rw [sub_mul, mul_assoc (exactTotal n dt l), e2] at lo
  rw [add_mul, mul_assoc (exactTotal n dt l), e1] at up
  have m1 := mul_le_mul_of_nonneg_left hpow hE
  have m2 := mul_le_mul_of_nonneg_left hpow' hE
  have m3 := mul_le_mul_of_nonneg_left q1 hc
  have m4 := mul_le_mul_of_nonneg_left q2 hc
  have m5 : 0 ≤ ((l.length + D + 2 : ℕ) : K) * R.u * exactTotal n dt l := by positivity
  rw [abs_le]
  constructor <;> linarith

/-- **C267** for doubles. -/
theorem C267_doubles [FloorRing K] (n D : ℕ) {dt : K} (hdt : 0 ≤ dt) (l : List (Added K))
    (h : ∀ a ∈ l, NonNeg a) (hD : ∀ a ∈ l, Shallow D a) (hk : l.length + D + 2 ≤ 2 ^ 52) :
    |total rnd64 n dt 0 l - exactTotal n dt l| ≤
      (l.length + D + 2 : ℕ) / 2 ^ 52 * exactTotal n dt l +
        4 * (dt + 1) * (l.map (count n)).sum / 2 ^ 1075 := by
  have hu : (binary64 K).u = 1 / 2 ^ 53 := rfl
  have hη : (binary64 K).η = 1 / 2 ^ 1075 := by
    show tiny64 K = _
    unfold tiny64
    rw [zpow_neg, one_div]
    norm_cast
  have hk' : ((l.length + D + 2 : ℕ) : K) ≤ 2 ^ 52 := by exact_mod_cast hk
  have h1 := C267_error (binary64 K) n D hdt l h hD (by
    rw [hu, show (2 : K) ^ 53 = 2 * 2 ^ 52 by norm_num]
    rw [mul_one_div, div_le_one (by positivity)]
    linarith)
  rw [hu, hη] at h1
  refine h1.trans (le_of_eq ?_)
  rw [show (2 : K) ^ 53 = 2 * 2 ^ 52 by norm_num]
  generalize (2 : K) ^ 1075 = b
  ring

omit [Field K] [LinearOrder K] [IsStrictOrderedRing K] in
/-- **C267**: whatever order the cells of an array are added in, the number of levels is less than the
number of cells. -/
theorem C267_any_order (D : ℕ) (t : AddOrder (K × K)) (h : (leaves t).length ≤ D + 1) :
    Shallow D (Added.cells t) := by
  have := depth_lt t
  show depth t ≤ D
  omega

/-- Rain of 1/10 mm/s on two cells of 100 and 300 m² for steps of 60 s, then a rate and an area for
all of seven cells, and discharge: the hypotheses are met. -/
def sample : List (Added ℚ) :=
  [.cells (.node (.leaf (1 / 10000, 100)) (.leaf (1 / 10000, 300))), .one (1 / 10000) 100, .flow (1 / 3)]

example : (∀ a ∈ sample, NonNeg a) ∧ (∀ a ∈ sample, Shallow 1 a) := by
  constructor
  · intro a ha
    simp only [sample, List.mem_cons, List.not_mem_nil, or_false] at ha
    rcases ha with rfl | rfl | rfl
    · intro c hc
      simp only [leaves, List.mem_append, List.mem_cons, List.not_mem_nil, or_false] at hc
      rcases hc with rfl | rfl <;> norm_num
    · exact ⟨by norm_num, by norm_num⟩
    · show (0 : ℚ) ≤ 1 / 3
      norm_num
  · intro a ha
    simp only [sample, List.mem_cons, List.not_mem_nil, or_false] at ha
    rcases ha with rfl | rfl | rfl
    · show depth _ ≤ 1
      simp [depth]
    · exact le_rfl
    · trivial

example : exactTotal 7 60 sample = 2.4 + 4.2 + 20 ∧
    |total rnd64 7 60 0 sample - 26.6| ≤ 1 / 10 ^ 14 ∧ total rnd64 7 60 0 sample ≠ 26.6 := by
  refine ⟨?_, by decide +kernel, by decide +kernel⟩
  simp only [exactTotal, sample, List.map_cons, List.map_nil, exactVolume, leaves, List.sum_cons,
    List.sum_nil, List.cons_append, List.nil_append]
  norm_num

end RoundTotal
