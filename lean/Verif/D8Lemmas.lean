import Verif.D8Model
import Verif.D8Spec
import Mathlib.Tactic.Linarith
import Mathlib.Tactic.Ring
import Mathlib.Tactic.FinCases
import Mathlib.Tactic.Positivity
import Mathlib.Order.WellFounded
import Mathlib.Data.Fintype.Card

/-! Helper lemmas for the D8 properties. -/

set_option linter.unusedSectionVars false

namespace D8
open D8Spec

variable {ny nx : ℕ}

/-! ### Bit sums -/

/-- Sum of codes of a set of directions. -/
def codeOf (b : Fin 8 → Bool) : ℤ :=
  (if b 0 then codeList 0 else 0) + (if b 1 then codeList 1 else 0) +
  (if b 2 then codeList 2 else 0) + (if b 3 then codeList 3 else 0) +
  (if b 4 then codeList 4 else 0) + (if b 5 then codeList 5 else 0) +
  (if b 6 then codeList 6 else 0) + (if b 7 then codeList 7 else 0)

theorem codeList_eq (k : Fin 8) : codeList k = 2 ^ k.val := by
  fin_cases k <;> rfl

theorem codeList_inj : Function.Injective codeList := by
  decide

def opp : Fin 8 → Fin 8 := ![4, 5, 6, 7, 0, 1, 2, 3]

theorem codeOpps_eq (k : Fin 8) : codeOpps k = codeList (opp k) := by
  fin_cases k <;> rfl

theorem codeList_pos (k : Fin 8) : 0 < codeList k := by
  fin_cases k <;> decide

theorem codeList_le (k : Fin 8) : codeList k ≤ 128 := by
  fin_cases k <;> decide

theorem bits_ext (P : (Fin 8 → Bool) → Prop)
    (h : ∀ b0 b1 b2 b3 b4 b5 b6 b7 : Bool, P ![b0, b1, b2, b3, b4, b5, b6, b7]) :
    ∀ b, P b := by
  intro b
  have : b = ![b 0, b 1, b 2, b 3, b 4, b 5, b 6, b 7] := by
    funext k; fin_cases k <;> rfl
  rw [this]; exact h _ _ _ _ _ _ _ _

/-- resolve of a sum of codes is one of the summed codes -/
def resolveOK (b : Fin 8 → Bool) : Prop :=
  (∃ k, b k = true) → ∃ k, b k = true ∧ resolve (codeOf b) = codeList k

instance (b : Fin 8 → Bool) : Decidable (resolveOK b) := by
  unfold resolveOK; infer_instance

theorem resolve_codeOf : ∀ b : Fin 8 → Bool, resolveOK b := by
  apply bits_ext
  decide +kernel

theorem allowed_codeOf : ∀ b : Fin 8 → Bool, ∀ k, allowed (codeOf b) k = b k := by
  apply bits_ext
  decide +kernel

theorem codeOf_bounds : ∀ b : Fin 8 → Bool, 0 ≤ codeOf b ∧ codeOf b ≤ 255 := by
  apply bits_ext
  decide +kernel

theorem codeOf_pos : ∀ b : Fin 8 → Bool, 0 < codeOf b ↔ ∃ k, b k = true := by
  apply bits_ext
  decide +kernel

theorem codeOf_single : ∀ b : Fin 8 → Bool, ∀ k, codeOf b = codeList k → b k = true := by
  apply bits_ext
  decide +kernel

theorem steepSum_eq {K : Type*} [Field K] [LinearOrder K] (s : Fin 8 → K) :
    steepSum s = codeOf (fun k => decide (s k = maxSlope s)) := by
  simp [steepSum, codeOf]

theorem readyCode_eq (d : Cell ny nx → ℤ) (c : Cell ny nx) :
    readyCode d c = codeOf (fun k => valid d c k && allowed (-1 * d c) k) := rfl

theorem le_maxSlope {K : Type*} [Field K] [LinearOrder K] (s : Fin 8 → K) (k : Fin 8) :
    s k ≤ maxSlope s := by
  unfold maxSlope
  fin_cases k <;> simp

theorem exists_maxSlope {K : Type*} [Field K] [LinearOrder K] (s : Fin 8 → K) :
    ∃ k, s k = maxSlope s := by
  unfold maxSlope
  rcases max_choice (max (max (max (max (max (max (s 0) (s 1)) (s 2)) (s 3)) (s 4)) (s 5)) (s 6)) (s 7) with h | h <;> rw [h]
  · rcases max_choice (max (max (max (max (max (s 0) (s 1)) (s 2)) (s 3)) (s 4)) (s 5)) (s 6) with h | h <;> rw [h]
    · rcases max_choice (max (max (max (max (s 0) (s 1)) (s 2)) (s 3)) (s 4)) (s 5) with h | h <;> rw [h]
      · rcases max_choice (max (max (max (s 0) (s 1)) (s 2)) (s 3)) (s 4) with h | h <;> rw [h]
        · rcases max_choice (max (max (s 0) (s 1)) (s 2)) (s 3) with h | h <;> rw [h]
          · rcases max_choice (max (s 0) (s 1)) (s 2) with h | h <;> rw [h]
            · rcases max_choice (s 0) (s 1) with h | h <;> rw [h]
              · exact ⟨0, rfl⟩
              · exact ⟨1, rfl⟩
            · exact ⟨2, rfl⟩
          · exact ⟨3, rfl⟩
        · exact ⟨4, rfl⟩
      · exact ⟨5, rfl⟩
    · exact ⟨6, rfl⟩
  · exact ⟨7, rfl⟩

/-! ### Neighbours -/

theorem inc_modEq {n : ℕ} (i : Fin n) : ((inc i).val : ℤ) ≡ i.val + 1 [ZMOD n] := by
  simp only [inc]
  push_cast
  exact Int.mod_modEq _ _

theorem dec_modEq {n : ℕ} (i : Fin n) : ((dec i).val : ℤ) ≡ i.val + -1 [ZMOD n] := by
  have hn : 1 ≤ n := Nat.succ_le_of_lt (Nat.lt_of_le_of_lt (Nat.zero_le _) i.isLt)
  simp only [dec]
  push_cast
  rw [Nat.cast_sub (by omega)]
  push_cast
  refine (Int.mod_modEq _ _).trans ?_
  have : ((i.val : ℤ) + n - 1) = (i.val + -1) + n * 1 := by ring
  rw [this]
  exact (Int.modEq_iff_dvd.2 ⟨-1, by ring⟩)

theorem fin_modEq_inj {n : ℕ} {i j : Fin n} (h : (i.val : ℤ) ≡ j.val [ZMOD n]) : i = j := by
  apply Fin.ext
  have h' : (i.val : ℤ) % n = (j.val : ℤ) % n := h
  have hi := i.isLt; have hj := j.isLt
  rw [Int.emod_eq_of_lt (by omega) (by omega), Int.emod_eq_of_lt (by omega) (by omega)] at h'
  exact_mod_cast h'

theorem isNbr_nbr (k : Fin 8) (c : Cell ny nx) : IsNbr k c (nbr k c) := by
  have e0 : ∀ {n : ℕ} (i : Fin n), ((i.val : ℤ)) ≡ i.val + 0 [ZMOD n] := by
    intro n i; simp
  fin_cases k <;> refine ⟨?_, ?_⟩ <;>
    first
      | exact inc_modEq _
      | exact dec_modEq _
      | exact e0 _

theorem isNbr_iff (k : Fin 8) (c e : Cell ny nx) : IsNbr k c e ↔ e = nbr k c := by
  constructor
  · intro h
    have h2 := isNbr_nbr k c
    exact Prod.ext (fin_modEq_inj (h.1.trans h2.1.symm)) (fin_modEq_inj (h.2.trans h2.2.symm))
  · rintro rfl; exact isNbr_nbr k c

theorem offset_opp (k : Fin 8) : (offset (opp k)).1 = -(offset k).1 ∧
    (offset (opp k)).2 = -(offset k).2 := by
  fin_cases k <;> decide

theorem isNbr_symm {k : Fin 8} {c e : Cell ny nx} (h : IsNbr k c e) : IsNbr (opp k) e c := by
  obtain ⟨h1, h2⟩ := offset_opp k
  unfold IsNbr at *
  rw [h1, h2]
  constructor
  · have := (h.1.symm).add_right (-(offset k).1)
    simpa using this
  · have := (h.2.symm).add_right (-(offset k).2)
    simpa using this

theorem opp_opp (k : Fin 8) : opp (opp k) = k := by fin_cases k <;> rfl

theorem nbr_opp (k : Fin 8) (c : Cell ny nx) : nbr (opp k) (nbr k c) = c :=
  ((isNbr_iff _ _ _).1 (isNbr_symm (isNbr_nbr k c))).symm

theorem flowsTo_iff {codes : Cell ny nx → ℤ} {c e : Cell ny nx} :
    FlowsTo codes c e ↔ ∃ k, codes c = codeList k ∧ e = nbr k c := by
  simp only [FlowsTo, isNbr_iff, codeList_eq]

theorem flowsTo_det {codes : Cell ny nx → ℤ} {c e e' : Cell ny nx}
    (h : FlowsTo codes c e) (h' : FlowsTo codes c e') : e = e' := by
  obtain ⟨k, hk, rfl⟩ := flowsTo_iff.1 h
  obtain ⟨k', hk', rfl⟩ := flowsTo_iff.1 h'
  rw [codeList_inj (hk.symm.trans hk')]

/-! ### link_flats -/

theorem fixable_isFlat {d : Cell ny nx → ℤ} {c : Cell ny nx} (h : fixable d c = true) :
    isFlat d c = true := by
  simp only [fixable, Bool.and_eq_true] at h; exact h.1

theorem linkPass_of_not_flat {d : Cell ny nx → ℤ} {c : Cell ny nx} (h : 0 ≤ d c) :
    linkPass d c = d c := by
  unfold linkPass
  rw [if_neg]
  intro hf
  have := fixable_isFlat hf
  simp only [isFlat, decide_eq_true_eq] at this
  omega

theorem fixable_spec {d : Cell ny nx → ℤ} {c : Cell ny nx} (h : fixable d c = true) :
    ∃ k, linkPass d c = codeList k ∧ valid d c k = true ∧ allowed (-1 * d c) k = true := by
  have h1 : linkPass d c = resolve (readyCode d c) := by simp [linkPass, h]
  have hp : 0 < readyCode d c := by
    simp only [fixable, Bool.and_eq_true, decide_eq_true_eq] at h; exact h.2
  rw [readyCode_eq] at h1 hp
  obtain ⟨k, hk, hr⟩ := resolve_codeOf _ ((codeOf_pos _).1 hp)
  rw [Bool.and_eq_true] at hk
  exact ⟨k, h1.trans hr, hk.1, hk.2⟩

theorem isFlat_linkPass {d : Cell ny nx → ℤ} {c : Cell ny nx} :
    isFlat (linkPass d) c = true ↔ isFlat d c = true ∧ fixable d c = false := by
  constructor
  · intro h
    by_cases hf : fixable d c = true
    · obtain ⟨k, hk, _⟩ := fixable_spec hf
      simp only [isFlat, hk, decide_eq_true_eq] at h
      have := codeList_pos k
      omega
    · have hf' : fixable d c = false := by simpa using hf
      refine ⟨?_, hf'⟩
      simp only [isFlat, linkPass, hf'] at h ⊢
      simpa using h
  · rintro ⟨h, hf⟩
    simp only [isFlat, linkPass, hf] at h ⊢
    simpa using h

theorem nFlats_linkPass_lt {d : Cell ny nx → ℤ} (h : nFixable d ≠ 0) :
    nFlats (linkPass d) < nFlats d := by
  unfold nFlats
  apply Finset.card_lt_card
  rw [Finset.ssubset_iff_of_subset]
  · obtain ⟨c, hc⟩ := Finset.card_pos.1 (Nat.pos_of_ne_zero h)
    simp only [Finset.mem_filter, Finset.mem_univ, true_and] at hc
    refine ⟨c, ?_, ?_⟩
    · simp [fixable_isFlat hc]
    · simp only [Finset.mem_filter, Finset.mem_univ, true_and]
      intro h'
      rw [isFlat_linkPass] at h'
      rw [hc] at h'
      exact absurd h'.2 (by simp)
  · intro c hc
    simp only [Finset.mem_filter, Finset.mem_univ, true_and] at hc ⊢
    exact (isFlat_linkPass.1 hc).1

theorem linkLoop_isSome (fuel : ℕ) (d : Cell ny nx → ℤ) (h : nFlats d < fuel) :
    (linkLoop fuel d).isSome = true := by
  induction fuel generalizing d with
  | zero => omega
  | succ n ih =>
    unfold linkLoop
    split_ifs with h0 h1
    · rfl
    · rfl
    · push Not at h1
      apply ih
      have := nFlats_linkPass_lt h1.2
      omega

/-- Every state of the loop satisfies a property preserved by passes. -/
theorem linkLoop_induct {P : (Cell ny nx → ℤ) → Prop}
    (hstep : ∀ d, P d → P (linkPass d)) :
    ∀ fuel (d d' : Cell ny nx → ℤ), P d → linkLoop fuel d = some d' → P d' := by
  intro fuel
  induction fuel with
  | zero => intro d d' _ h; simp [linkLoop] at h
  | succ n ih =>
    intro d d' hP h
    unfold linkLoop at h
    split_ifs at h with h0 h1
    · cases h; exact hP
    · cases h; exact hstep _ hP
    · exact ih _ _ (hstep _ hP) h

/-- On exit nothing is fixable. -/
theorem linkLoop_exit : ∀ fuel (d d' : Cell ny nx → ℤ), linkLoop fuel d = some d' →
    ∀ c, fixable d' c = false := by
  intro fuel
  induction fuel with
  | zero => intro d d' h; simp [linkLoop] at h
  | succ n ih =>
    intro d d' h
    unfold linkLoop at h
    split_ifs at h with h0 h1
    · cases h
      intro c
      by_contra hc
      rw [Bool.not_eq_false] at hc
      have : c ∈ Finset.univ.filter (fun c => isFlat d c) := by
        simp [fixable_isFlat hc]
      unfold nFlats at h0
      rw [Finset.card_eq_zero] at h0
      rw [h0] at this
      simp at this
    · cases h
      intro c
      rcases h1 with h1 | h1
      · -- all flats fixed
        have hsub : Finset.univ.filter (fun c => fixable d c) ⊆
            Finset.univ.filter (fun c => isFlat d c) := by
          intro x hx
          simp only [Finset.mem_filter, Finset.mem_univ, true_and] at hx ⊢
          exact fixable_isFlat hx
        have heq := Finset.eq_of_subset_of_card_le hsub (by unfold nFixable nFlats at h1; omega)
        by_contra hc
        rw [Bool.not_eq_false] at hc
        have hc' := isFlat_linkPass.1 (fixable_isFlat hc)
        have : c ∈ Finset.univ.filter (fun c => isFlat d c) := by simp [hc'.1]
        rw [← heq] at this
        simp only [Finset.mem_filter, Finset.mem_univ, true_and] at this
        rw [this] at hc'
        exact absurd hc'.2 (by simp)
      · -- nothing fixable: the pass changed nothing
        unfold nFixable at h1
        rw [Finset.card_eq_zero] at h1
        have hnf : ∀ x, fixable d x = false := by
          intro x
          by_contra hx
          rw [Bool.not_eq_false] at hx
          have : x ∈ Finset.univ.filter (fun c => fixable d c) := by simp [hx]
          rw [h1] at this; simp at this
        have : linkPass d = d := by
          funext x; simp [linkPass, hnf x]
        rw [this]; exact hnf c
    · exact ih _ _ h

/-! ### The rank invariant -/
section
variable {K : Type*} [Field K] [LinearOrder K]

/-- Invariant of the flow grid while flats are being linked. -/
structure LinkInv (z : Cell ny nx → K) (d : Cell ny nx → ℤ) (rank : Cell ny nx → ℕ)
    (N : ℕ) : Prop where
  bound : ∀ c, rank c ≤ N
  flow : ∀ c k, d c = codeList k →
    z (nbr k c) < z c ∨ (z (nbr k c) = z c ∧ rank (nbr k c) < rank c ∧ 0 < d (nbr k c))
  flat : ∀ c, d c < 0 → d c ≠ -300 →
    ∃ b : Fin 8 → Bool, d c = - codeOf b ∧ ∀ k, (b k = true ↔ z (nbr k c) = z c)

theorem LinkInv.step {z : Cell ny nx → K} {d : Cell ny nx → ℤ} {rank : Cell ny nx → ℕ}
    {N : ℕ} (h : LinkInv z d rank N) :
    LinkInv z (linkPass d) (fun c => if fixable d c then N + 1 else rank c) (N + 1) := by
  have hposmono : ∀ c, 0 < d c → linkPass d c = d c := fun c hc =>
    linkPass_of_not_flat hc.le
  constructor
  · intro c
    have := h.bound c
    split_ifs <;> omega
  · intro c k hck
    by_cases hf : fixable d c = true
    · obtain ⟨k', hk', hv, ha⟩ := fixable_spec hf
      have hkk : k = k' := codeList_inj (hck.symm.trans hk')
      subst hkk
      have hfl := fixable_isFlat hf
      simp only [isFlat, decide_eq_true_eq] at hfl
      obtain ⟨b, hb, hbk⟩ := h.flat c hfl.1 hfl.2.1
      rw [hb, neg_one_mul, neg_neg, allowed_codeOf] at ha
      have hz := (hbk k).1 ha
      simp only [valid, decide_eq_true_eq] at hv
      right
      have hnf : fixable d (nbr k c) = false := by
        by_contra hx
        rw [Bool.not_eq_false] at hx
        have := fixable_isFlat hx
        simp only [isFlat, decide_eq_true_eq] at this
        omega
      refine ⟨hz, ?_, ?_⟩
      · simp only [hf, hnf, if_true]
        have := h.bound (nbr k c)
        simp only [Bool.false_eq_true, if_false]
        omega
      · rw [hposmono _ hv.1]; exact hv.1
    · have hf' : fixable d c = false := by simpa using hf
      have hdc : d c = codeList k := by simpa [linkPass, hf'] using hck
      rcases h.flow c k hdc with h1 | ⟨h1, h2, h3⟩
      · exact Or.inl h1
      · right
        have hnf : fixable d (nbr k c) = false := by
          by_contra hx
          rw [Bool.not_eq_false] at hx
          have := fixable_isFlat hx
          simp only [isFlat, decide_eq_true_eq] at this
          omega
        refine ⟨h1, ?_, ?_⟩
        · simpa [hf', hnf] using h2
        · rw [hposmono _ h3]; exact h3
  · intro c hc hc'
    by_cases hf : fixable d c = true
    · obtain ⟨k', hk', _⟩ := fixable_spec hf
      have := codeList_pos k'
      omega
    · have hf' : fixable d c = false := by simpa using hf
      have hdc : linkPass d c = d c := by simp [linkPass, hf']
      rw [hdc] at hc hc' ⊢
      exact h.flat c hc hc'

theorem linkLoop_inv {z : Cell ny nx → K} {d d' : Cell ny nx → ℤ} {fuel : ℕ}
    (h : ∃ rank N, LinkInv z d rank N) (hl : linkLoop fuel d = some d') :
    ∃ rank N, LinkInv z d' rank N :=
  linkLoop_induct (P := fun d => ∃ rank N, LinkInv z d rank N)
    (fun _ ⟨_, _, h⟩ => ⟨_, _, h.step⟩) fuel d d' h hl

variable [IsStrictOrderedRing K]

/-- The pixel sizes are positive. -/
structure Config.Pos (cfg : Config K) : Prop where
  dx : 0 < cfg.dx
  dy : 0 < cfg.dy
  dd : 0 < cfg.dd

theorem Config.Pos.dist {cfg : Config K} (h : cfg.Pos) (k : Fin 8) : 0 < cfg.dist k := by
  fin_cases k
  · exact h.dd
  · exact h.dx
  · exact h.dd
  · exact h.dy
  · exact h.dd
  · exact h.dx
  · exact h.dd
  · exact h.dy

theorem slope_pos {cfg : Config K} (h : cfg.Pos) {z : Cell ny nx → K} {c : Cell ny nx}
    {k : Fin 8} : 0 < slope cfg z c k ↔ z (nbr k c) < z c := by
  unfold slope
  rw [div_pos_iff_of_pos_right (h.dist k), sub_pos]

theorem slope_zero {cfg : Config K} (h : cfg.Pos) {z : Cell ny nx → K} {c : Cell ny nx}
    {k : Fin 8} : slope cfg z c k = 0 ↔ z (nbr k c) = z c := by
  unfold slope
  rw [div_eq_zero_iff, sub_eq_zero]
  have := (h.dist k).ne'
  tauto

/-- possible values of the start code -/
theorem startCode_cases (cfg : Config K) (z : Cell ny nx → K) (c : Cell ny nx) :
    startCode cfg z c = 0 ∨
    (0 < maxSlope (slope cfg z c) ∧ startCode cfg z c = steepSum (slope cfg z c)) ∨
    (maxSlope (slope cfg z c) = 0 ∧ startCode cfg z c = - steepSum (slope cfg z c)) ∨
    (startCode cfg z c = -300) := by
  unfold startCode
  dsimp only
  rcases lt_trichotomy (maxSlope (slope cfg z c)) 0 with h | h | h
  · simp only [h, h.ne, h.le, if_true]
    split_ifs <;> simp
  · simp only [h, lt_irrefl, le_refl, if_true]
    split_ifs <;> simp
  · simp only [h, h.not_gt, h.not_ge, h.ne', if_false]
    split_ifs <;> simp

/-- The invariant holds before linking. -/
theorem start_inv {cfg : Config K} (h : cfg.Pos) (z : Cell ny nx → K) :
    LinkInv z (if cfg.breakTies then breakTies (startCode cfg z) else startCode cfg z)
      (fun _ => 0) 0 := by
  constructor
  · intro c; exact le_rfl
  · intro c k hck
    left
    -- the code is a steepest direction with positive slope
    have key : ∀ k, (steepSum (slope cfg z c) = codeList k ∨
        resolve (steepSum (slope cfg z c)) = codeList k) → 0 < maxSlope (slope cfg z c) →
        z (nbr k c) < z c := by
      intro k hk hpos
      rw [← slope_pos h]
      rw [steepSum_eq] at hk
      rcases hk with hk | hk
      · have := codeOf_single _ _ hk
        simp only [decide_eq_true_eq] at this
        rw [this]; exact hpos
      · obtain ⟨k0, hk0⟩ := exists_maxSlope (slope cfg z c)
        obtain ⟨k', hk', hr⟩ := resolve_codeOf
          (fun k => decide (slope cfg z c k = maxSlope (slope cfg z c))) ⟨k0, by simpa using hk0⟩
        have : k = k' := codeList_inj (hk.symm.trans hr)
        subst this
        simp only [decide_eq_true_eq] at hk'
        rw [hk']; exact hpos
    have hkpos := codeList_pos k
    have hsum := codeOf_bounds (fun k => decide (slope cfg z c k = maxSlope (slope cfg z c)))
    rw [← steepSum_eq] at hsum
    by_cases hb : cfg.breakTies = true
    · simp only [hb, if_true, breakTies] at hck
      rcases startCode_cases cfg z c with h0 | ⟨h1, h2⟩ | ⟨h1, h2⟩ | h3
      · rw [h0] at hck; simp at hck; omega
      · rw [h2] at hck
        split_ifs at hck with hp
        · exact key k (Or.inr hck) h1
        · omega
      · rw [h2] at hck
        split_ifs at hck with hp <;> omega
      · rw [h3] at hck
        split_ifs at hck with hp <;> omega
    · have hb' : cfg.breakTies = false := by simpa using hb
      simp only [hb', Bool.false_eq_true, if_false] at hck
      rcases startCode_cases cfg z c with h0 | ⟨h1, h2⟩ | ⟨h1, h2⟩ | h3
      · omega
      · exact key k (Or.inl (h2.symm.trans hck)) h1
      · omega
      · omega
  · intro c hc hc'
    have hsame : (if cfg.breakTies then breakTies (startCode cfg z) else startCode cfg z) c
        = startCode cfg z c := by
      by_cases hb : cfg.breakTies = true
      · simp only [hb, if_true, breakTies] at hc ⊢
        split_ifs at hc ⊢ with hp
        · exfalso
          have : (0:ℤ) ≤ resolve (startCode cfg z c) := Int.natCast_nonneg _
          omega
        · rfl
      · simp [hb]
    rw [hsame] at hc hc' ⊢
    have hsum := codeOf_bounds (fun k => decide (slope cfg z c k = maxSlope (slope cfg z c)))
    rw [← steepSum_eq] at hsum
    rcases startCode_cases cfg z c with h0 | ⟨h1, h2⟩ | ⟨h1, h2⟩ | h3
    · omega
    · omega
    · refine ⟨_, by rw [h2, steepSum_eq], ?_⟩
      intro k
      simp only [decide_eq_true_eq]
      rw [h1, slope_zero h]
    · omega

theorem validCodeMap_codeList {x : ℤ} {k : Fin 8} : validCodeMap x = codeList k ↔ x = codeList k := by
  unfold validCodeMap
  have hpos := codeList_pos k
  have hle := codeList_le k
  constructor
  · intro h
    split_ifs at h <;> omega
  · rintro rfl
    rw [if_neg (by omega)]
    rw [if_pos]
    fin_cases k <;> decide

theorem validCodeMap_eq_zero {x : ℤ} : validCodeMap x = 0 ↔ ∀ k, x ≠ codeList k := by
  constructor
  · intro h k hk
    have := validCodeMap_codeList.2 hk
    have := codeList_pos k
    omega
  · intro h
    unfold validCodeMap
    split_ifs with h1 h2
    · rfl
    · exfalso
      simp only [List.mem_cons, List.not_mem_nil, or_false] at h2
      rcases h2 with h2|h2|h2|h2|h2|h2|h2|h2
      · exact h 0 h2
      · exact h 1 h2
      · exact h 2 h2
      · exact h 3 h2
      · exact h 4 h2
      · exact h 5 h2
      · exact h 6 h2
      · exact h 7 h2
    · rfl

/-- The final grid, its unfinalised version, and the invariant. -/
theorem updateFlowGrid_inv {cfg : Config K} (h : cfg.Pos) {fuel : ℕ} {z : Cell ny nx → K}
    {codes : Cell ny nx → ℤ} (hu : updateFlowGrid cfg fuel z = some codes) :
    ∃ d rank N, LinkInv z d rank N ∧ (∀ c, codes c = validCodeMap (d c)) ∧
      (cfg.linkFlats = true →
        linkLoop fuel (if cfg.breakTies then breakTies (startCode cfg z) else startCode cfg z)
          = some d) ∧
      (cfg.linkFlats = false →
        d = (if cfg.breakTies then breakTies (startCode cfg z) else startCode cfg z)) := by
  unfold updateFlowGrid at hu
  dsimp only at hu
  by_cases hl : cfg.linkFlats = true
  · simp only [hl, if_true, Option.map_eq_some_iff] at hu
    obtain ⟨d, hd, hc⟩ := hu
    obtain ⟨rank, N, hinv⟩ := linkLoop_inv ⟨_, _, start_inv h z⟩ hd
    exact ⟨d, rank, N, hinv, fun c => by rw [← hc], fun _ => hd, fun h => by simp [hl] at h⟩
  · have hl' : cfg.linkFlats = false := by simpa using hl
    simp only [hl', Bool.false_eq_true, if_false, Option.map_some, Option.some.injEq] at hu
    exact ⟨_, _, _, start_inv h z, fun c => by rw [← hu], fun h => by simp [hl'] at h,
      fun _ => rfl⟩

theorem flow_step {cfg : Config K} (h : cfg.Pos) {fuel : ℕ} {z : Cell ny nx → K}
    {codes : Cell ny nx → ℤ} (hu : updateFlowGrid cfg fuel z = some codes) :
    ∃ rank : Cell ny nx → ℕ, ∀ c e, FlowsTo codes c e →
      z e < z c ∨ (z e = z c ∧ rank e < rank c) := by
  obtain ⟨d, rank, N, hinv, hc, _⟩ := updateFlowGrid_inv h hu
  refine ⟨rank, ?_⟩
  intro c e hce
  obtain ⟨k, hk, rfl⟩ := flowsTo_iff.1 hce
  rw [hc, validCodeMap_codeList] at hk
  rcases hinv.flow c k hk with h1 | ⟨h1, h2, _⟩
  · exact Or.inl h1
  · exact Or.inr ⟨h1, h2⟩

end
end D8
