import Verif.SatzoneModel
import Verif.ChannelProps
import Mathlib.Tactic.Linarith
import Mathlib.Tactic.FieldSimp
import Mathlib.Tactic.Ring

/-!
# Properties of the groundwater component (C34, C35, C59, C60)
-/

set_option autoImplicit false
set_option linter.unusedSectionVars false

/-! ## Specification vocabulary -/

namespace SatSpec

open Satzone

variable {K : Type*} [Field K] [LinearOrder K] [IsStrictOrderedRing K]

/-- Thicknesses and porosities are positive. -/
def Physical (ls : List (Layer K)) : Prop := ∀ l ∈ ls, 0 < l.th ∧ 0 < l.p

/-- Every layer is between empty and full. -/
def InRange (ls : List (Layer K)) : Prop := ∀ l ∈ ls, 0 ≤ l.y ∧ l.y ≤ l.th

/-- Water held by the soil: saturated thickness times porosity. -/
def soilWater (ls : List (Layer K)) : K := (ls.map (fun l => l.y * l.p)).sum

/-- Room left in the soil. -/
def room (ls : List (Layer K)) : K := (ls.map (fun l => (l.th - l.y) * l.p)).sum

/-- Water above the land surface `z` when the water table is at `h`. -/
def surfaceWater (z h : K) : K := max (h - z) 0

/-- All water of the column. -/
def columnWater (z : K) (ls : List (Layer K)) (h : K) : K := soilWater ls + surfaceWater z h

/-- The layers, whose top is at `z`, are wet exactly below the water table `h`. -/
def Matches (h : K) : K → List (Layer K) → Prop
  | _, [] => True
  | z, l :: ls => l.y = min (max (h - (z - l.th)) 0) l.th ∧ Matches h (z - l.th) ls

/-- Total thickness. -/
def depth (ls : List (Layer K)) : K := (ls.map Layer.th).sum

/-- Porosities, thicknesses and number of layers agree. -/
def SameSoil (ls ls' : List (Layer K)) : Prop :=
  ls.map (fun l => (l.th, l.p)) = ls'.map (fun l => (l.th, l.p))

end SatSpec

namespace Satzone

open SatSpec

section column

variable {K : Type*} [Field K] [LinearOrder K] [IsStrictOrderedRing K]

theorem soilWater_nonneg {ls : List (Layer K)} (hp : Physical ls) (hr : InRange ls) :
    0 ≤ soilWater ls := by
  unfold soilWater
  refine List.sum_nonneg ?_
  intro x hx
  obtain ⟨l, hl, rfl⟩ := List.mem_map.1 hx
  exact mul_nonneg (hr l hl).1 (hp l hl).2.le

theorem matches_inRange {ls : List (Layer K)} {z h : K} (hp : Physical ls) (hm : Matches h z ls) :
    InRange ls := by
  induction ls generalizing z with
  | nil => intro l hl; cases hl
  | cons l ls ih =>
    obtain ⟨h1, h2⟩ := hm
    have hp' : Physical ls := fun x hx => hp x (List.mem_cons_of_mem _ hx)
    have := ih hp' h2
    intro x hx
    rcases List.mem_cons.1 hx with rfl | hx
    · rw [h1]
      exact ⟨le_min (le_max_right _ _) (hp x List.mem_cons_self).1.le, min_le_right _ _⟩
    · exact this x hx

/-- Below a water table that is above the top, all layers are full, whatever its exact elevation. -/
theorem matches_above {ls : List (Layer K)} {z h h' : K} (hp : Physical ls) (hm : Matches h z ls)
    (h1 : z ≤ h) (h2 : z ≤ h') : Matches h' z ls := by
  induction ls generalizing z with
  | nil => trivial
  | cons l ls ih =>
    obtain ⟨a, b⟩ := hm
    have hth := (hp l List.mem_cons_self).1
    have hp' : Physical ls := fun x hx => hp x (List.mem_cons_of_mem _ hx)
    refine ⟨?_, ih hp' b (by linarith) (by linarith)⟩
    rw [a, min_eq_right, min_eq_right]
    · exact le_max_of_le_left (by linarith)
    · exact le_max_of_le_left (by linarith)

theorem matches_full {ls : List (Layer K)} {z h : K} (hp : Physical ls) (hm : Matches h z ls)
    (h1 : z ≤ h) : ∀ l ∈ ls, l.y = l.th := by
  induction ls generalizing z with
  | nil => intro l hl; cases hl
  | cons l ls ih =>
    obtain ⟨a, b⟩ := hm
    have hth := (hp l List.mem_cons_self).1
    have hp' : Physical ls := fun x hx => hp x (List.mem_cons_of_mem _ hx)
    intro x hx
    rcases List.mem_cons.1 hx with rfl | hx
    · rw [a, min_eq_right]
      exact le_max_of_le_left (by linarith)
    · exact ih hp' b (by linarith) x hx

/-! ## The falling loop -/

/-- Nothing happens when there is nothing to take. -/
theorem fallLoop_zero {ls : List (Layer K)} (hp : Physical ls) (hr : InRange ls) (h : K) :
    fallLoop ls 0 h = (ls, 0, h) := by
  induction ls generalizing h with
  | nil => rfl
  | cons l ls ih =>
    have h1 := hp l List.mem_cons_self
    have h2 := hr l List.mem_cons_self
    have hn : ¬ |(0 : K)| > l.y * l.p := by
      rw [abs_zero]
      exact not_lt.2 (mul_nonneg h2.1 h1.2.le)
    have : fallLayer l 0 h = (l, 0, h) := by
      simp only [fallLayer, if_neg hn, zero_div, add_zero]
    simp only [fallLoop, this]
    rw [ih (fun x hx => hp x (List.mem_cons_of_mem _ hx))
      (fun x hx => hr x (List.mem_cons_of_mem _ hx))]

theorem fallLoop_spec {ls : List (Layer K)} {z h d : K} (hp : Physical ls) (hm : Matches h z ls)
    (hz : h ≤ z) (hd : 0 ≤ d) (hle : d ≤ soilWater ls) :
    ∃ ls' h', fallLoop ls (-d) h = (ls', 0, h') ∧ Matches h' z ls' ∧ h' ≤ h ∧
      soilWater ls' = soilWater ls - d ∧ SameSoil ls ls' := by
  induction ls generalizing z h d with
  | nil =>
    have : d = 0 := by
      simp only [soilWater, List.map_nil, List.sum_nil] at hle
      exact le_antisymm hle hd
    subst this
    exact ⟨[], h, by simp [fallLoop], trivial, le_refl _, by simp [soilWater], rfl⟩
  | cons l ls ih =>
    obtain ⟨a, b⟩ := hm
    have hth := (hp l List.mem_cons_self).1
    have hpp := (hp l List.mem_cons_self).2
    have hp' : Physical ls := fun x hx => hp x (List.mem_cons_of_mem _ hx)
    have hr := matches_inRange hp (show Matches h z (l :: ls) from ⟨a, b⟩)
    have hy := hr l List.mem_cons_self
    have hsw : soilWater (l :: ls) = l.y * l.p + soilWater ls := by
      simp [soilWater]
    rw [hsw] at hle
    by_cases hc : |(-d)| > l.y * l.p
    · -- the layer is emptied
      have hd' : l.y * l.p < d := by rwa [abs_neg, abs_of_nonneg hd] at hc
      have e : fallLayer l (-d) h = ({ l with y := 0 }, -(d - l.y * l.p), h - l.y) := by
        simp only [fallLayer, if_pos hc]
        congr 2
        ring
      have hb : h - l.y ≤ z - l.th ∧ Matches (h - l.y) (z - l.th) ls := by
        rcases le_total h (z - l.th) with hh | hh
        · have : l.y = 0 := by
            rw [a, max_eq_right (by linarith), min_eq_left hth.le]
          rw [this]
          simp only [sub_zero]
          exact ⟨hh, b⟩
        · have : l.y = h - (z - l.th) := by
            rw [a, max_eq_left (by linarith), min_eq_left (by linarith)]
          have e2 : h - l.y = z - l.th := by rw [this]; ring
          rw [e2]
          exact ⟨le_refl _, matches_above hp' b hh (le_refl _)⟩
      obtain ⟨ls', h', e1, m, hle', w, s⟩ :=
        ih hp' hb.2 hb.1 (by linarith : 0 ≤ d - l.y * l.p) (by linarith)
      refine ⟨{ l with y := 0 } :: ls', h', ?_, ?_, by linarith [hy.1], ?_, ?_⟩
      · simp only [fallLoop, e, e1]
      · refine ⟨?_, m⟩
        show (0 : K) = _
        rw [max_eq_right (show h' - (z - l.th) ≤ 0 by linarith [hb.1]), min_eq_left hth.le]
      · have : soilWater ({ l with y := 0 } :: ls') = soilWater ls' := by
          simp [soilWater]
        rw [this, w, hsw]
        ring
      · unfold SameSoil at s ⊢
        simp only [List.map_cons, s]
    · -- the layer gives all
      have hd' : d ≤ l.y * l.p := by
        rw [abs_neg, abs_of_nonneg hd] at hc
        exact not_lt.1 hc
      have hdp : d / l.p ≤ l.y := by rwa [div_le_iff₀ hpp]
      have hdp0 : 0 ≤ d / l.p := div_nonneg hd hpp.le
      have e : fallLayer l (-d) h = ({ l with y := l.y - d / l.p }, 0, h - d / l.p) := by
        simp only [fallLayer, if_neg hc, neg_div, ← sub_eq_add_neg]
      have hm' : Matches (h - d / l.p) z ({ l with y := l.y - d / l.p } :: ls) := by
        rcases le_total h (z - l.th) with hh | hh
        · have y0 : l.y = 0 := by
            rw [a, max_eq_right (by linarith), min_eq_left hth.le]
          have d0 : d / l.p = 0 := le_antisymm (by linarith) hdp0
          rw [d0, sub_zero, sub_zero]
          exact ⟨a, b⟩
        · have yv : l.y = h - (z - l.th) := by
            rw [a, max_eq_left (by linarith), min_eq_left (by linarith)]
          refine ⟨?_, matches_above hp' b hh (show z - l.th ≤ h - d / l.p by linarith)⟩
          show l.y - d / l.p = _
          rw [max_eq_left (show 0 ≤ h - d / l.p - (z - l.th) by linarith),
            min_eq_left (show h - d / l.p - (z - l.th) ≤ l.th by linarith)]
          linarith
      have hr' : InRange ls := fun x hx => hr x (List.mem_cons_of_mem _ hx)
      refine ⟨{ l with y := l.y - d / l.p } :: ls, h - d / l.p, ?_, hm', by linarith, ?_, ?_⟩
      · simp only [fallLoop, e, fallLoop_zero hp' hr']
      · rw [hsw]
        have : (l.y - d / l.p) * l.p = l.y * l.p - d := by
          rw [sub_mul, div_mul_cancel₀ _ hpp.ne']
        simp only [soilWater, List.map_cons, List.sum_cons, this]
        ring
      · simp [SameSoil]

/-! ## The rising loop -/

theorem riseLoop_zero {ls : List (Layer K)} (hp : Physical ls) (hr : InRange ls) (h : K) :
    riseLoop ls 0 h = (ls, 0, h) := by
  induction ls generalizing h with
  | nil => rfl
  | cons l ls ih =>
    have h1 := hp l List.mem_cons_self
    have h2 := hr l List.mem_cons_self
    have hn : ¬ (0 : K) > min ((l.th - l.y) * l.p) 0 := by
      rw [min_eq_right (mul_nonneg (by linarith) h1.2.le)]
      exact lt_irrefl _
    have : riseLayer l 0 h = (l, 0, h) := by
      simp only [riseLayer, if_neg hn, zero_div, add_zero]
    simp only [riseLoop]
    rw [ih (fun x hx => hp x (List.mem_cons_of_mem _ hx))
      (fun x hx => hr x (List.mem_cons_of_mem _ hx))]
    simp only [this]

theorem riseLoop_pos {ls : List (Layer K)} {d : K} (hp : Physical ls) (hr : InRange ls)
    (hd : 0 < d) (h : K) :
    riseLoop ls d h = (ls.map (fun l => { l with y := l.th }), d,
      h + (ls.map (fun l => l.th - l.y)).sum) := by
  induction ls generalizing h with
  | nil => simp [riseLoop]
  | cons l ls ih =>
    have h1 := hp l List.mem_cons_self
    have h2 := hr l List.mem_cons_self
    have e0 : min ((l.th - l.y) * l.p) 0 = 0 :=
      min_eq_right (mul_nonneg (by linarith) h1.2.le)
    simp only [riseLoop]
    rw [ih (fun x hx => hp x (List.mem_cons_of_mem _ hx))
      (fun x hx => hr x (List.mem_cons_of_mem _ hx))]
    simp only [riseLayer, e0, gt_iff_lt, if_pos hd, sub_zero, List.map_cons, List.sum_cons]
    congr 2
    ring

theorem last_of_ne {ls : List (Layer K)} (hne : ls ≠ []) : ∃ l, ls.getLast? = some l := by
  cases h : ls.getLast? with
  | none => exact absurd (List.getLast?_eq_none_iff.1 h) hne
  | some l => exact ⟨l, rfl⟩

theorem fullMap_physical {ls : List (Layer K)} (hp : Physical ls) :
    Physical (ls.map (fun l => { l with y := l.th })) := by
  intro x hx
  obtain ⟨l, hl, rfl⟩ := List.mem_map.1 hx
  exact hp l hl

theorem fullMap_inRange {ls : List (Layer K)} (hp : Physical ls) :
    InRange (ls.map (fun l => { l with y := l.th })) := by
  intro x hx
  obtain ⟨l, hl, rfl⟩ := List.mem_map.1 hx
  exact ⟨(hp l hl).1.le, le_refl _⟩

theorem soilWater_full (ls : List (Layer K)) :
    soilWater (ls.map (fun l => { l with y := l.th })) = soilWater ls + room ls := by
  unfold soilWater room
  induction ls with
  | nil => simp
  | cons l ls ih =>
    simp only [List.map_cons, List.sum_cons]
    rw [ih]
    ring

theorem rise_to_top {ls : List (Layer K)} {z h : K} (hp : Physical ls) (hm : Matches h z ls)
    (hz : h ≤ z) (hb : z - depth ls ≤ h) : h + (ls.map (fun l => l.th - l.y)).sum = z := by
  induction ls generalizing z with
  | nil => simp [depth] at hb ⊢; exact le_antisymm hz hb
  | cons l ls ih =>
    obtain ⟨a, b⟩ := hm
    have hth := (hp l List.mem_cons_self).1
    have hp' : Physical ls := fun x hx => hp x (List.mem_cons_of_mem _ hx)
    have hd : depth (l :: ls) = l.th + depth ls := by simp [depth]
    rw [hd] at hb
    simp only [List.map_cons, List.sum_cons]
    rcases le_total h (z - l.th) with hh | hh
    · have y0 : l.y = 0 := by
        rw [a, max_eq_right (by linarith), min_eq_left hth.le]
      have := ih hp' b hh (by linarith)
      rw [y0]
      linarith
    · have yv : l.y = h - (z - l.th) := by
        rw [a, max_eq_left (by linarith), min_eq_left (by linarith)]
      have hf := matches_full hp' b hh
      have : (ls.map (fun l => l.th - l.y)).sum = 0 := by
        apply List.sum_eq_zero
        intro x hx
        obtain ⟨m, hm, rfl⟩ := List.mem_map.1 hx
        rw [hf m hm, sub_self]
      rw [this, yv]
      ring

/-! ## C34 -/

/-- Initialisation gives layers that are wet exactly below the water table. -/
theorem wetted_matches (h z : K) (ls : List (K × K)) : Matches h z (wetted h z ls).1 := by
  induction ls generalizing z with
  | nil => trivial
  | cons a ls ih => exact ⟨rfl, ih _⟩

/-- **C34** (initial state): the layers are wet exactly below the water table, so between empty and
full. -/
theorem C34_initial_layers (elev h : K) (ls : List (K × K)) (hp : ∀ l ∈ ls, 0 < l.1 ∧ 0 < l.2) :
    Matches h elev (initWetted elev h ls).layers ∧ InRange (initWetted elev h ls).layers ∧
    (initWetted elev h ls).layers.map (fun l => (l.th, l.p)) = ls := by
  have hm := wetted_matches h elev ls
  have e : ∀ z, (wetted h z ls).1.map (fun l => (l.th, l.p)) = ls := by
    clear hp hm
    induction ls with
    | nil => intro z; rfl
    | cons a ls ih => intro z; simp [wetted, ih]
  refine ⟨hm, matches_inRange ?_ hm, e elev⟩
  intro l hl
  have : (l.th, l.p) ∈ (wetted h elev ls).1.map (fun l => (l.th, l.p)) := List.mem_map.2 ⟨l, hl, rfl⟩
  rw [e] at this
  exact hp _ this

/-- **C34** for a falling water table: when no water stands above the land surface and the soil
holds the amount that is withdrawn, the update removes exactly that amount, every layer stays
between empty and full, and the layers are still wet exactly below the new water table. -/
theorem C34_falling_partial {ls : List (Layer K)} {z h dzw : K} (hne : ls ≠ []) (hp : Physical ls)
    (hm : Matches h z ls) (hz : h ≤ z) (hd : dzw ≤ 0) (hle : -dzw ≤ soilWater ls) :
    ∃ ls' h', updateTable false dzw ls h = some (ls', h') ∧
      columnWater z ls' h' = columnWater z ls h + dzw ∧
      InRange ls' ∧ SameSoil ls ls' ∧ Matches h' z ls' ∧ h' ≤ h := by
  obtain ⟨last, hl⟩ := last_of_ne hne
  have hr := matches_inRange hp hm
  obtain ⟨ls', h', e, m, hh, w, s⟩ := fallLoop_spec hp hm hz (by linarith : 0 ≤ -dzw) hle
  rw [neg_neg] at e
  have hpos : (if dzw < 0 then 0 else dzw) = 0 := by
    split_ifs with hc
    · rfl
    · exact le_antisymm hd (not_lt.1 hc)
  have hneg : (if dzw > 0 then 0 else dzw) = dzw := if_neg (not_lt.2 hd)
  refine ⟨ls', h', ?_, ?_, ?_, s, m, hh⟩
  · unfold updateTable
    rw [hl]
    simp only [hpos, hneg, riseLoop_zero hp hr, gt_iff_lt, lt_irrefl, if_false, e,
      Bool.false_eq_true]
  · unfold columnWater surfaceWater
    rw [w, max_eq_right (by linarith), max_eq_right (by linarith)]
    ring
  · refine matches_inRange ?_ m
    intro x hx
    have : (x.th, x.p) ∈ ls.map (fun l => (l.th, l.p)) := by
      rw [s]; exact List.mem_map.2 ⟨x, hx, rfl⟩
    obtain ⟨l, hl, e⟩ := List.mem_map.1 this
    have := hp l hl
    simp only [Prod.mk.injEq] at e
    rw [← e.1, ← e.2]
    exact this

/-- **C34** for a column that is already full: everything that is added ends up above the land
surface. -/
theorem C34_saturated_partial {ls : List (Layer K)} {z h dzw : K} (hne : ls ≠ []) (hp : Physical ls)
    (hm : Matches h z ls) (hz : z ≤ h) (hd : 0 < dzw) :
    ∃ h', updateTable false dzw ls h = some (ls, h') ∧
      columnWater z ls h' = columnWater z ls h + dzw := by
  obtain ⟨last, hl⟩ := last_of_ne hne
  have hr := matches_inRange hp hm
  have hf := matches_full hp hm hz
  have e1 : ls.map (fun l => { l with y := l.th }) = ls := by
    conv_rhs => rw [← List.map_id ls]
    apply List.map_congr_left
    intro l hl
    obtain ⟨th, p, y⟩ := l
    have := hf _ hl
    simp only at this
    simp [this]
  have e2 : (ls.map (fun l => l.th - l.y)).sum = 0 := by
    apply List.sum_eq_zero
    intro x hx
    obtain ⟨m, hm, rfl⟩ := List.mem_map.1 hx
    rw [hf m hm, sub_self]
  refine ⟨h + dzw, ?_, ?_⟩
  · unfold updateTable
    rw [hl]
    simp only [not_lt.2 hd.le, if_false, riseLoop_pos hp hr hd, e1, e2, add_zero, gt_iff_lt,
      if_pos hd, fallLoop_zero hp hr, lt_irrefl, Bool.false_eq_true]
  · unfold columnWater surfaceWater
    rw [max_eq_left (by linarith), max_eq_left (by linarith)]
    ring

/-- **C34 is violated** by every rise of the water table in a column that is not full: whatever the
positive inflow, all layers are filled to the top, the whole inflow is put above the land surface,
and the column gains the inflow plus all the room it had. -/
theorem C34_rising_violated {ls : List (Layer K)} {z h dzw : K} (hne : ls ≠ []) (hp : Physical ls)
    (hm : Matches h z ls) (hz : h < z) (hb : z - depth ls ≤ h) (hd : 0 < dzw) :
    ∃ ls' h', updateTable false dzw ls h = some (ls', h') ∧
      (∀ l ∈ ls', l.y = l.th) ∧ h' = z + dzw ∧
      columnWater z ls' h' = columnWater z ls h + dzw + room ls ∧ 0 < room ls := by
  obtain ⟨last, hl⟩ := last_of_ne hne
  have hr := matches_inRange hp hm
  have ht := rise_to_top hp hm hz.le hb
  have hpf := fullMap_physical hp
  have hrf := fullMap_inRange hp
  refine ⟨ls.map (fun l => { l with y := l.th }), z + dzw, ?_, ?_, rfl, ?_, ?_⟩
  · unfold updateTable
    rw [hl]
    simp only [not_lt.2 hd.le, if_false, riseLoop_pos hp hr hd, ht, gt_iff_lt,
      if_pos hd, fallLoop_zero hpf hrf, lt_irrefl, Bool.false_eq_true]
  · intro l hl
    obtain ⟨m, _, rfl⟩ := List.mem_map.1 hl
    rfl
  · unfold columnWater surfaceWater
    rw [soilWater_full, max_eq_left (by linarith), max_eq_right (by linarith)]
    ring
  · -- some layer is not full
    have hroom : ∀ x ∈ ls.map (fun l => (l.th - l.y) * l.p), 0 ≤ x := by
      intro x hx
      obtain ⟨l, hl, rfl⟩ := List.mem_map.1 hx
      exact mul_nonneg (by linarith [(hr l hl).2]) (hp l hl).2.le
    refine lt_of_le_of_ne (List.sum_nonneg hroom) ?_
    intro h0
    have hz0 : ∀ l ∈ ls, l.th - l.y = 0 := by
      intro l hl
      have := List.single_le_sum hroom _ (List.mem_map.2 ⟨l, hl, rfl⟩)
      have h1 := hroom _ (List.mem_map.2 ⟨l, hl, rfl⟩)
      have : (l.th - l.y) * l.p = 0 := le_antisymm (this.trans h0.symm.le) h1
      rcases mul_eq_zero.1 this with h | h
      · exact h
      · exact absurd h (hp l hl).2.ne'
    have : (ls.map (fun l => l.th - l.y)).sum = 0 := by
      apply List.sum_eq_zero
      intro x hx
      obtain ⟨m, hm, rfl⟩ := List.mem_map.1 hx
      exact hz0 m hm
    linarith

/-- **C34 is violated** by every fall of the water table while water stands above the surface: a
withdrawal that the standing water could serve is taken from the top layer and once more, divided by
the porosity, from the standing water. -/
theorem C34_ponded_violated {l : Layer K} {ls : List (Layer K)} {z h d : K}
    (hp : Physical (l :: ls)) (hm : Matches h z (l :: ls)) (hd : 0 < d) (hle : d ≤ l.th * l.p)
    (hz : z + d / l.p ≤ h) :
    ∃ ls' h', updateTable false (-d) (l :: ls) h = some (ls', h') ∧
      columnWater z ls' h' = columnWater z (l :: ls) h - d - d / l.p := by
  obtain ⟨last, hl⟩ := last_of_ne (List.cons_ne_nil l ls)
  have hpp := (hp l List.mem_cons_self).2
  have hdp : 0 < d / l.p := div_pos hd hpp
  have hr := matches_inRange hp hm
  have hf := matches_full hp hm (by linarith) l List.mem_cons_self
  have hr' : InRange ls := fun x hx => hr x (List.mem_cons_of_mem _ hx)
  have hp' : Physical ls := fun x hx => hp x (List.mem_cons_of_mem _ hx)
  have hc : ¬ |(-d)| > l.y * l.p := by
    rw [abs_neg, abs_of_pos hd, hf]
    exact not_lt.2 hle
  have e : fallLayer l (-d) h = ({ l with y := l.y - d / l.p }, 0, h - d / l.p) := by
    simp only [fallLayer, if_neg hc, neg_div, ← sub_eq_add_neg]
  have hpos : (if -d < 0 then 0 else -d) = 0 := if_pos (by linarith)
  have hneg : (if -d > 0 then 0 else -d) = -d := if_neg (by simp; exact hd.le)
  refine ⟨{ l with y := l.y - d / l.p } :: ls, h - d / l.p, ?_, ?_⟩
  · unfold updateTable
    rw [hl]
    simp only [hpos, hneg, riseLoop_zero hp hr, gt_iff_lt, lt_irrefl, if_false, fallLoop, e,
      fallLoop_zero hp' hr', Bool.false_eq_true]
  · have hw : (l.y - d / l.p) * l.p = l.y * l.p - d := by
      rw [sub_mul, div_mul_cancel₀ _ hpp.ne']
    unfold columnWater surfaceWater
    rw [max_eq_left (by linarith), max_eq_left (by linarith)]
    simp only [soilWater, List.map_cons, List.sum_cons, hw]
    ring

/-- The hypotheses of the falling case are met by a column of two layers, one partly wet, and the
withdrawal goes through both. -/
example : updateTable false (-7/10 : ℚ) [⟨2, 1/2, 1⟩, ⟨3, 1/5, 3⟩] 4 =
    some ([⟨2, 1/2, 0⟩, ⟨3, 1/5, 2⟩], 2) := by decide +kernel

example : Physical [(⟨2, 1/2, 1⟩ : Layer ℚ), ⟨3, 1/5, 3⟩] ∧
    Matches (4 : ℚ) 5 [⟨2, 1/2, 1⟩, ⟨3, 1/5, 3⟩] := by
  refine ⟨?_, ?_⟩
  · intro l hl; fin_cases hl <;> exact ⟨by decide +kernel, by decide +kernel⟩
  · exact ⟨by decide +kernel, by decide +kernel, trivial⟩

/-- The same column with one millimetre of inflow: it is filled to the top, gaining half a metre of
water out of nothing. -/
example : updateTable false (1/1000 : ℚ) [⟨2, 1/2, 1⟩, ⟨3, 1/5, 3⟩] 4 =
    some ([⟨2, 1/2, 2⟩, ⟨3, 1/5, 3⟩], 5 + 1/1000) := by decide +kernel

/-! ## C35 -/

theorem wetted_elev (h z : K) (ls : List (K × K)) :
    (wetted h z ls).2 = z - (ls.map Prod.fst).sum := by
  induction ls generalizing z with
  | nil => simp [wetted]
  | cons a ls ih =>
    simp only [wetted, ih, List.map_cons, List.sum_cons]
    ring

/-- **C35 is violated** for every stack of soil layers: initialisation lowers the land surface by
the total thickness of the layers. -/
theorem C35_violated (elev h : K) (ls : List (K × K)) (hne : ls ≠ [])
    (hp : ∀ l ∈ ls, 0 < l.1 ∧ 0 < l.2) :
    (initWetted elev h ls).elev = elev - (ls.map Prod.fst).sum ∧
    (initWetted elev h ls).elev < elev := by
  have e := wetted_elev h elev ls
  refine ⟨e, ?_⟩
  show (wetted h elev ls).2 < elev
  rw [e]
  have : 0 < (ls.map Prod.fst).sum := by
    cases ls with
    | nil => exact absurd rfl hne
    | cons a ls =>
      simp only [List.map_cons, List.sum_cons]
      have h1 := (hp a List.mem_cons_self).1
      have h2 : 0 ≤ (ls.map Prod.fst).sum := by
        apply List.sum_nonneg
        intro x hx
        obtain ⟨l, hl, rfl⟩ := List.mem_map.1 hx
        exact (hp l (List.mem_cons_of_mem _ hl)).1.le
      linarith
  linarith

/-- The consequence for seepage: with the elevation left behind by initialisation, a water table
rising anywhere above the bottom of the lowest layer is reported as seepage, although it is below
the land surface. -/
theorem C35_seepage_below_surface {elev h0 h h_last dt : K} {ls : List (K × K)} (hdt : 0 < dt)
    (hrise : h_last < h) (h1 : elev - (ls.map Prod.fst).sum < h) :
    0 < seepRate false dt (initWetted elev h0 ls).elev h_last h := by
  have e : (initWetted elev h0 ls).elev = elev - (ls.map Prod.fst).sum := wetted_elev h0 elev ls
  rw [e]
  unfold seepRate
  simp only [gt_iff_lt, h1, if_true, one_mul, Bool.false_eq_true, if_false]
  exact lt_max_of_lt_left (div_pos (by linarith) hdt)

example : (initWetted (10 : ℚ) 8 [(1, 1/2), (4, 1/4)]).elev = 5 ∧
    (initWetted (10 : ℚ) 8 [(1, 1/2), (4, 1/4)]).layers = [⟨1, 1/2, 0⟩, ⟨4, 1/4, 3⟩] := by
  decide +kernel

/-! ## C60: seepage -/

/-- **C60**: seepage is never negative, is zero where the water table is at or below the surface it
is compared with, where the water table does not rise, and in cells without flow direction. -/
theorem C60_seepage_sign (noflow : Bool) (dt elev h_last h : K) (hdt : 0 < dt) :
    0 ≤ seepRate noflow dt elev h_last h ∧
    (h ≤ elev → seepRate noflow dt elev h_last h = 0) ∧
    (h ≤ h_last → seepRate noflow dt elev h_last h = 0) ∧
    (noflow = true → seepRate noflow dt elev h_last h = 0) := by
  unfold seepRate
  refine ⟨le_max_right _ _, ?_, ?_, ?_⟩
  · intro hh
    simp [not_lt.2 hh]
  · intro hh
    have h0 : (h - h_last) / dt ≤ 0 := div_nonpos_of_nonpos_of_nonneg (by linarith) hdt.le
    apply max_eq_right
    split_ifs <;> simp [h0]
  · rintro rfl
    simp

/-- **C60**, partial: when the water table was already at or above the surface, the depth that
seeps out is exactly the rise. -/
theorem C60_seepage_amount_partial (dt elev h_last h : K) (hdt : 0 < dt) (h1 : elev ≤ h_last)
    (h2 : h_last < h) :
    seepRate false dt elev h_last h * dt = surfaceWater elev h - surfaceWater elev h_last := by
  unfold seepRate surfaceWater
  have : elev < h := lt_of_le_of_lt h1 h2
  simp only [gt_iff_lt, this, if_true, one_mul, Bool.false_eq_true, if_false]
  rw [max_eq_left (div_nonneg (by linarith) hdt.le), div_mul_cancel₀ _ hdt.ne',
    max_eq_left (by linarith), max_eq_left (by linarith)]
  ring

/-- **C60 is violated** whenever the water table comes up through the surface: the whole rise, also
the part within the soil, is delivered as seepage, more than appeared above the surface. -/
theorem C60_crossing_violated (dt elev h_last h : K) (hdt : 0 < dt) (h1 : h_last < elev)
    (h2 : elev < h) :
    seepRate false dt elev h_last h * dt =
      surfaceWater elev h - surfaceWater elev h_last + (elev - h_last) := by
  unfold seepRate surfaceWater
  simp only [gt_iff_lt, h2, if_true, one_mul, Bool.false_eq_true, if_false]
  rw [max_eq_left (div_nonneg (by linarith) hdt.le), div_mul_cancel₀ _ hdt.ne',
    max_eq_left (by linarith), max_eq_right (by linarith)]
  ring

example : seepRate false (10 : ℚ) 5 3 6 = 3/10 ∧ seepRate false (10 : ℚ) 5 5 6 = 1/10 := by
  decide +kernel

/-! ## C59: lateral flow -/

/-- Darcy discharge of a column: slope times width times the sum of conductivity times wetted
thickness. -/
def _root_.SatSpec.darcy (Sh dw : K) (ls : List (K × Layer K)) : K :=
  Sh * dw * (ls.map (fun kl => kl.1 * kl.2.y)).sum

theorem updateQ_eq (Sh dw q : K) (ls : List (K × Layer K)) :
    updateQ Sh dw q ls = min q 0 + darcy Sh dw ls := by
  unfold updateQ darcy
  generalize min q 0 = a
  induction ls generalizing a with
  | nil => simp
  | cons kl ls ih =>
    rw [List.foldl_cons, ih]
    simp only [List.map_cons, List.sum_cons]
    ring

/-- **C59** (discharge), partial: the discharge is Darcy's, if the previous one was not negative. -/
theorem C59_darcy_partial (Sh dw q : K) (ls : List (K × Layer K)) (hq : 0 ≤ q) :
    updateQ Sh dw q ls = darcy Sh dw ls := by
  rw [updateQ_eq, min_eq_right hq, zero_add]

/-- **C59 is violated** wherever the water table slopes against the flow direction: negative
discharges pile up, so that after `n` updates with the same slope and layers the discharge is `n`
times Darcy's. -/
theorem C59_darcy_violated (Sh dw : K) (ls : List (K × Layer K)) (hneg : darcy Sh dw ls < 0) (n : ℕ) :
    (fun q => updateQ Sh dw q ls)^[n] 0 = n * darcy Sh dw ls := by
  induction n with
  | zero => simp
  | succ n ih =>
    rw [Function.iterate_succ_apply', ih]
    simp only [updateQ_eq]
    rw [min_eq_left (mul_nonpos_of_nonneg_of_nonpos (Nat.cast_nonneg n) hneg.le)]
    push_cast
    ring

example : darcy (-1/10 : ℚ) 30 [(1/100, ⟨2, 1/2, 1⟩)] < 0 ∧
    (fun q => updateQ (-1/10 : ℚ) 30 q [(1/100, ⟨2, 1/2, 1⟩)])^[3] 0 = -9/100 := by decide +kernel

end column

noncomputable section grid

open scoped BigOperators
open D8 (Cell)
open Chan (Net)
open ChanSpec (inflow IsDemNet)

variable {ny nx : ℕ}

/-- **C59** (one cell): a cell's net inflow is recharge plus what its upstream neighbours give minus
what it gives. -/
theorem C59_cell {codes : Cell ny nx → ℤ} {net : Net ny nx} (hd : IsDemNet codes net)
    (dt : ℝ) (da Rg Q : Cell ny nx → ℝ) (c : Cell ny nx) :
    volumeChange dt da Rg Q net c = (Rg c * da c + inflow codes Q c - Q c) * dt := by
  unfold volumeChange
  rw [Chan.fold_inflow (Chan.IsDemNet.good hd), Chan.inflow_mul]
  ring

/-- **C59** (whole grid): lateral flow only moves water between cells: the net inflows of all cells
add up to the recharge minus what leaves through cells without flow direction. -/
theorem C59_total {codes : Cell ny nx → ℤ} {net : Net ny nx} (hd : IsDemNet codes net)
    (dt : ℝ) (da Rg Q : Cell ny nx → ℝ) :
    ∑ c, volumeChange dt da Rg Q net c =
      ∑ c, Rg c * da c * dt - dt * ∑ c ∈ Finset.univ.filter (fun c => codes c = 0), Q c := by
  have hg := Chan.IsDemNet.good hd
  have e : ∀ c, inflow codes Q c = inflow codes (fun c => if codes c = 0 then 0 else Q c) c := by
    intro c
    unfold inflow
    refine Finset.sum_congr rfl (fun e he => ?_)
    classical
    have hf : D8Spec.FlowsTo codes e c := by simpa using he
    show Q e = if codes e = 0 then 0 else Q e
    rw [if_neg (fun h => Chan.noflow_not_flows h c hf)]
  have s := Chan.sum_inflow hg (fun c => if codes c = 0 then 0 else Q c) (fun c h => if_pos h)
  have q : ∑ c, (if codes c = 0 then 0 else Q c) =
      ∑ c, Q c - ∑ c ∈ Finset.univ.filter (fun c => codes c = 0), Q c := by
    rw [← Finset.sum_filter_add_sum_filter_not Finset.univ (fun c => codes c = 0) Q,
      add_sub_cancel_left, Finset.sum_filter]
    refine Finset.sum_congr rfl (fun c _ => ?_)
    by_cases h : codes c = 0 <;> simp [h]
  rw [Finset.sum_congr rfl (fun c _ => C59_cell hd dt da Rg Q c), ← Finset.sum_mul,
    Finset.sum_sub_distrib, Finset.sum_add_distrib, Finset.sum_congr rfl (fun c _ => e c), s, q,
    ← Finset.sum_mul]
  ring

/-- Net inflow as a depth: multiplied by the cell area it is the net inflow volume. -/
theorem C59_depth (dt : ℝ) (da Rg Q : Cell ny nx → ℝ) (net : Net ny nx) (c : Cell ny nx)
    (ha : da c ≠ 0) : inflowDepth dt da Rg Q net c * da c = volumeChange dt da Rg Q net c := by
  unfold inflowDepth
  exact div_mul_cancel₀ _ ha

end grid

end Satzone
