import Verif.ClimateModel
import Verif.SolarSeason
import Mathlib.Tactic.Linarith
import Mathlib.Tactic.FieldSimp
import Mathlib.Tactic.Positivity
import Mathlib.Analysis.SpecialFunctions.Trigonometric.InverseDeriv

/-!
# Climate indicators and classes of basins: properties C192-C199
-/

set_option autoImplicit false
set_option linter.unusedSectionVars false
set_option linter.unusedSimpArgs false

namespace Climate

/-! ## Specification of the classes: boxes of the three-parameter space -/

section Boxes

variable {K : Type} [Field K] [LinearOrder K] [IsStrictOrderedRing K]

/-- A class: its name and its ranges of timing index, snow fraction and aridity.  Lower limits do not belong to the
class and upper limits do, except that `closed` includes the lower limit of the snow fraction. -/
structure Box (K : Type) where
  name : String
  dlo : K
  dhi : K
  closed : Bool
  flo : K
  fhi : K
  plo : K
  phi : K

/-- The point lies in the class. -/
def Box.Mem (b : Box K) (d f p : K) : Prop :=
  (b.dlo < d ∧ d ≤ b.dhi) ∧ ((if b.closed then b.flo ≤ f else b.flo < f) ∧ f ≤ b.fhi) ∧ (b.plo < p ∧ p ≤ b.phi)

instance (b : Box K) (d f p : K) : Decidable (b.Mem d f p) := by unfold Box.Mem; infer_instance

/-- The ten classes of Berghuijs et al. (2014), and a list of further classes. -/
def originalBoxes (more : List (Box K)) : List (Box K) :=
  [⟨"D1", -(4/10), 3/10, true, 0, 0, 5/10, 9/10⟩,
   ⟨"D2", -(1/10), 3/10, false, 0, 2/10, 5/10, 9/10⟩,
   ⟨"D3", -(1/10), 4/10, false, 2/10, 45/100, 4/10, 9/10⟩,
   ⟨"C1", 0, 1, true, 0, 25/100, 9/10, 15/10⟩,
   ⟨"C2", 0, 1, true, 0, 25/100, 15/10, 53/10⟩,
   ⟨"B1", -1, 1, false, 45/100, 1, 0, 75/100⟩,
   ⟨"B2", -1, 1, false, 45/100, 1, 75/100, 175/100⟩] ++ more ++
  [⟨"A1", -1, -(4/10), false, 0, 45/100, 0, 75/100⟩,
   ⟨"A2", -1, -(4/10), false, 0, 45/100, 75/100, 175/100⟩,
   ⟨"A3", -1, -(4/10), false, 0, 45/100, 175/100, 5⟩]

/-- The classes with the expanded boundaries; `a3` is the largest snow fraction of class A3. -/
def expandedBoxes (a3 : K) (more : List (Box K)) : List (Box K) :=
  [⟨"D1", -(4/10), 1, true, 0, 0, 0, 9/10⟩,
   ⟨"D2", -(1/10), 1, false, 0, 2/10, 0, 9/10⟩,
   ⟨"D3", -(1/10), 1, false, 2/10, 45/100, 0, 9/10⟩,
   ⟨"C1", -(1/10), 1, true, 0, 45/100, 9/10, 15/10⟩,
   ⟨"C2", -(1/10), 1, true, 0, 45/100, 15/10, 58/10⟩,
   ⟨"B1", -1, 1, false, 45/100, 1, 0, 75/100⟩,
   ⟨"B2", -1, 1, false, 45/100, 1, 75/100, 175/100⟩] ++ more ++
  [⟨"A1", -1, -(1/10), false, 0, 45/100, 0, 75/100⟩,
   ⟨"A2", -1, -(1/10), false, 0, 45/100, 75/100, 175/100⟩,
   ⟨"A3", -1, -(1/10), false, 0, a3, 175/100, 58/10⟩]

/-- The additional class B3. -/
def b3Box (p : K) : Box K := ⟨"B3", -1, 1, false, 45/100, 1, 175/100, p⟩

/-- The classes for the two options. -/
def boxes (original useB3 : Bool) : List (Box K) :=
  match original, useB3 with
  | true, false => originalBoxes []
  | true, true => originalBoxes [b3Box (53/10)]
  | false, true => expandedBoxes (45/100) [b3Box (58/10)]
  | false, false => expandedBoxes 1 []

end Boxes

/-! ## Lemmas -/

section BoxLemmas

variable {K : Type} [Field K] [LinearOrder K] [IsStrictOrderedRing K]

/-- First box that contains the point. -/
def chain (d f p : K) : List (Box K) → String
  | [] => "None"
  | b :: l => if b.Mem d f p then b.name else chain d f p l

theorem chain_spec (d f p : K) : ∀ (l : List (Box K)),
    l.Pairwise (fun b b' => b.Mem d f p → b'.Mem d f p → False) → (l.map Box.name).Nodup →
    (∀ b ∈ l, b.name ≠ "None") →
    (∀ b ∈ l, (chain d f p l = b.name ↔ b.Mem d f p)) ∧
      (chain d f p l = "None" ↔ ∀ b ∈ l, ¬ b.Mem d f p) ∧
      (chain d f p l = "None" ∨ chain d f p l ∈ l.map Box.name)
  | [], _, _, _ => by simp [chain]
  | c :: l, hd, hn, hN => by
    rw [List.pairwise_cons] at hd
    rw [List.map_cons, List.nodup_cons] at hn
    obtain ⟨i1, i2, i3⟩ := chain_spec d f p l hd.2 hn.2 (fun b hb => hN b (List.mem_cons_of_mem _ hb))
    by_cases hc : c.Mem d f p
    · simp only [chain, if_pos hc]
      refine ⟨?_, ?_, ?_⟩
      · intro b hb
        rcases List.mem_cons.1 hb with rfl | hb
        · simp [hc]
        · constructor
          · intro e
            exact absurd (List.mem_map.2 ⟨b, hb, e.symm⟩) hn.1
          · intro hm
            exact (hd.1 b hb hc hm).elim
      · constructor
        · intro e; exact absurd e (hN c List.mem_cons_self)
        · intro h; exact absurd hc (h c List.mem_cons_self)
      · right; simp
    · simp only [chain, if_neg hc]
      refine ⟨?_, ?_, ?_⟩
      · intro b hb
        rcases List.mem_cons.1 hb with rfl | hb
        · constructor
          · intro e
            rcases i3 with h | h
            · rw [e] at h; exact absurd h (hN b List.mem_cons_self)
            · rw [e] at h; exact absurd h hn.1
          · intro h; exact absurd h hc
        · exact i1 b hb
      · rw [i2]
        constructor
        · intro h b hb
          rcases List.mem_cons.1 hb with rfl | hb
          · exact hc
          · exact h b hb
        · intro h b hb; exact h b (List.mem_cons_of_mem _ hb)
      · rcases i3 with h | h
        · exact Or.inl h
        · right; rw [List.map_cons]; exact List.mem_cons_of_mem _ h

theorem within_iff (a x b : K) : within a x b = true ↔ a < x ∧ x ≤ b := by simp [within]

theorem checkA_eq (a q m : K) (b : Bounds K) (h1 : b.aDpMax = a) (h2 : b.a3FsMax = m) (h3 : b.a3PhiMax = q)
    (d f p : K) (cls : String) :
    checkA b d f p cls =
      if (⟨"A1", -1, a, false, 0, 45/100, 0, 75/100⟩ : Box K).Mem d f p then "A1"
      else if (⟨"A2", -1, a, false, 0, 45/100, 75/100, 175/100⟩ : Box K).Mem d f p then "A2"
      else if (⟨"A3", -1, a, false, 0, m, 175/100, q⟩ : Box K).Mem d f p then "A3" else cls := by
  subst h1 h2 h3
  simp only [checkA, within_iff, Box.Mem, Bool.false_eq_true, if_false]
  by_cases hd : -1 < d ∧ d ≤ b.aDpMax
  · by_cases h1 : 0 < p ∧ p ≤ 75 / 100
    · have h2 : ¬ (75 / 100 < p ∧ p ≤ 175 / 100) := by rintro ⟨h, _⟩; linarith [h1.2]
      have h3 : ¬ (175 / 100 < p ∧ p ≤ b.a3PhiMax) := by rintro ⟨h, _⟩; linarith [h1.2]
      simp [hd, h1, h2, h3]
    · by_cases h2 : 75 / 100 < p ∧ p ≤ 175 / 100
      · have h3 : ¬ (175 / 100 < p ∧ p ≤ b.a3PhiMax) := by rintro ⟨h, _⟩; linarith [h2.2]
        simp [hd, h1, h2, h3]
      · simp [hd, h1, h2, and_comm]
        split_ifs <;> tauto
  · simp [hd]

theorem checkB_eq (q : K) (b : Bounds K) (h1 : b.b3PhiMax = q) (u : Bool) (d f p : K) (cls : String) :
    checkB b u d f p cls =
      if (⟨"B1", -1, 1, false, 45/100, 1, 0, 75/100⟩ : Box K).Mem d f p then "B1"
      else if (⟨"B2", -1, 1, false, 45/100, 1, 75/100, 175/100⟩ : Box K).Mem d f p then "B2"
      else if u = true ∧ (b3Box q).Mem d f p then "B3" else cls := by
  subst h1
  simp only [checkB, within_iff, Box.Mem, Bool.false_eq_true, if_false, b3Box]
  by_cases hd : -1 < d ∧ d ≤ 1
  · by_cases hf : 45 / 100 < f ∧ f ≤ 1
    · by_cases h1 : 0 < p ∧ p ≤ 75 / 100
      · simp [hd, hf, h1]
      · by_cases h2 : 75 / 100 < p ∧ p ≤ 175 / 100
        · simp [hd, hf, h1, h2]
        · by_cases h3 : 175 / 100 < p ∧ p ≤ b.b3PhiMax
          · cases u <;> simp [hd, hf, h1, h2, h3]
          · simp [hd, hf, h1, h2, h3]
    · simp [hf]
  · simp [hd]

theorem checkC_eq (a m q : K) (b : Bounds K) (h1 : b.cDpMin = a) (h2 : b.cFsMax = m) (h3 : b.c2PhiMax = q)
    (d f p : K) (cls : String) :
    checkC b d f p cls =
      if (⟨"C1", a, 1, true, 0, m, 9/10, 15/10⟩ : Box K).Mem d f p then "C1"
      else if (⟨"C2", a, 1, true, 0, m, 15/10, q⟩ : Box K).Mem d f p then "C2" else cls := by
  subst h1 h2 h3
  have e : (90 / 100 : K) = 9 / 10 := by norm_num
  simp only [checkC, within_iff, Box.Mem, if_true, e, Bool.and_eq_true, decide_eq_true_eq]
  by_cases hd : b.cDpMin < d ∧ d ≤ 1
  · by_cases hf : 0 ≤ f ∧ f ≤ b.cFsMax
    · simp only [hd, hf, and_self, true_and, if_true]
    · simp [hd, hf]
  · simp [hd]

theorem checkD_eq (a b2 b3 c1 c2 c3 e1 e2 e3 : K) (b : Bounds K)
    (h2 : b.d2DpMin = b2) (h3 : b.d3DpMin = b3) (i1 : b.d1DpMax = c1) (i2 : b.d2DpMax = c2) (i3 : b.d3DpMax = c3)
    (j1 : b.d1PhiMin = e1) (j2 : b.d2PhiMin = e2) (j3 : b.d3PhiMin = e3) (ha : a = -(4 / 10))
    (d f p : K) (cls : String) :
    checkD b d f p cls =
      if (⟨"D1", a, c1, true, 0, 0, e1, 9/10⟩ : Box K).Mem d f p then "D1"
      else if (⟨"D2", b2, c2, false, 0, 2/10, e2, 9/10⟩ : Box K).Mem d f p then "D2"
      else if (⟨"D3", b3, c3, false, 2/10, 45/100, e3, 9/10⟩ : Box K).Mem d f p then "D3" else cls := by
  subst h2 h3 i1 i2 i3 j1 j2 j3 ha
  have e : (90 / 100 : K) = 9 / 10 := by norm_num
  simp only [checkD, within_iff, Box.Mem, if_true, e, Bool.false_eq_true, if_false]
  by_cases h0 : f = 0
  · have g1 : ¬ (0 < f ∧ f ≤ 2 / 10) := by rintro ⟨h, _⟩; exact absurd h (by rw [h0]; exact lt_irrefl 0)
    have g2 : ¬ (2 / 10 < f ∧ f ≤ 45 / 100) := by rintro ⟨h, _⟩; rw [h0] at h; linarith
    have g3 : (0 ≤ f ∧ f ≤ 0) := by rw [h0]; exact ⟨le_refl _, le_refl _⟩
    by_cases hd : -(4 / 10) < d ∧ d ≤ b.d1DpMax
    · by_cases hp : b.d1PhiMin < p ∧ p ≤ 9 / 10
      · simp only [g1, g2, g3, if_pos h0, hd, hp, and_self, true_and, false_and, and_false, if_false, if_true]
      · simp only [g1, g2, g3, if_pos h0, hd, hp, and_self, true_and, false_and, and_false, if_false, if_true]
    · simp only [g1, g2, g3, if_pos h0, hd, and_self, true_and, false_and, and_false, if_false, if_true]
  · have g3 : ¬ (0 ≤ f ∧ f ≤ 0) := by rintro ⟨h, h'⟩; exact h0 (le_antisymm h' h)
    by_cases g1 : 0 < f ∧ f ≤ 2 / 10
    · have g2 : ¬ (2 / 10 < f ∧ f ≤ 45 / 100) := by rintro ⟨h, _⟩; linarith [g1.2]
      by_cases hd : b.d2DpMin < d ∧ d ≤ b.d2DpMax
      · by_cases hp : b.d2PhiMin < p ∧ p ≤ 9 / 10
        · simp only [g1, g2, g3, h0, hd, hp, and_self, and_true, true_and, false_and, and_false, if_false, if_true]
        · simp only [g1, g2, g3, h0, hd, hp, and_self, and_true, true_and, false_and, and_false, if_false, if_true]
      · simp only [g1, g2, g3, h0, hd, and_self, and_true, true_and, false_and, and_false, if_false, if_true]
    · by_cases g2 : 2 / 10 < f ∧ f ≤ 45 / 100
      · by_cases hd : b.d3DpMin < d ∧ d ≤ b.d3DpMax
        · by_cases hp : b.d3PhiMin < p ∧ p ≤ 9 / 10
          · simp only [g1, g2, g3, h0, hd, hp, and_self, and_true, true_and, false_and, and_false, if_false, if_true]
          · simp only [g1, g2, g3, h0, hd, hp, and_self, and_true, true_and, false_and, and_false, if_false, if_true]
        · simp only [g1, g2, g3, h0, hd, and_self, and_true, true_and, false_and, and_false, if_false, if_true]
      · simp only [g1, g2, g3, h0, false_and, and_false, if_false]

theorem swbClass_eq (original useB3 : Bool) (d f p : K) :
    swbClass original useB3 d f p = chain d f p (boxes original useB3) := by
  unfold swbClass
  cases original <;> cases useB3 <;>
    (simp only []
     rw [checkD_eq _ _ _ _ _ _ _ _ _ _ rfl rfl rfl rfl rfl rfl rfl rfl rfl,
       checkC_eq _ _ _ _ rfl rfl rfl, checkB_eq _ _ rfl, checkA_eq _ _ _ _ rfl rfl rfl]
     simp only [boxes, originalBoxes, expandedBoxes, chain, List.cons_append, List.nil_append, bounds, if_true,
       Bool.false_eq_true, if_false, Bool.or_true, Bool.true_or, Bool.or_false, false_and, true_and, b3Box])

/-- One of the three ranges of `b` ends where that of `b'` begins. -/
def Box.sep (b b' : Box K) : Prop :=
  b.dhi ≤ b'.dlo ∨ b'.dhi ≤ b.dlo ∨ (b'.closed = false ∧ b.fhi ≤ b'.flo) ∨ (b.closed = false ∧ b'.fhi ≤ b.flo) ∨
    b.phi ≤ b'.plo ∨ b'.phi ≤ b.plo

theorem Box.sep_disjoint {b b' : Box K} (h : b.sep b') (d f p : K) (hb : b.Mem d f p) (hb' : b'.Mem d f p) : False := by
  obtain ⟨⟨d1, d2⟩, ⟨f1, f2⟩, p1, p2⟩ := hb
  obtain ⟨⟨d1', d2'⟩, ⟨f1', f2'⟩, p1', p2'⟩ := hb'
  rcases h with h | h | ⟨c, h⟩ | ⟨c, h⟩ | h | h
  · exact absurd (lt_of_le_of_lt h d1') (not_lt.2 d2)
  · exact absurd (lt_of_le_of_lt h d1) (not_lt.2 d2')
  · rw [c] at f1'
    exact absurd (lt_of_le_of_lt h f1') (not_lt.2 f2)
  · rw [c] at f1
    exact absurd (lt_of_le_of_lt h f1) (not_lt.2 f2')
  · exact absurd (lt_of_le_of_lt h p1') (not_lt.2 p2)
  · exact absurd (lt_of_le_of_lt h p1) (not_lt.2 p2')

theorem boxes_disjoint (original useB3 : Bool) (d f p : K) :
    (boxes original useB3).Pairwise fun b b' : Box K => b.Mem d f p → b'.Mem d f p → False := by
  refine List.Pairwise.imp (R := Box.sep) (fun h => Box.sep_disjoint h d f p) ?_
  have a1 : (-(4 / 10) : K) ≤ -(1 / 10) := by norm_num
  have a2 : (-(4 / 10) : K) ≤ 0 := by norm_num
  have a3 : (9 / 10 : K) ≤ 15 / 10 := by norm_num
  have a4 : (2 / 10 : K) ≤ 45 / 100 := by norm_num
  have a5 : (25 / 100 : K) ≤ 45 / 100 := by norm_num
  have a6 : (75 / 100 : K) ≤ 175 / 100 := by norm_num
  have a7 : (0 : K) ≤ 2 / 10 := by norm_num
  have a8 : (0 : K) ≤ 45 / 100 := by norm_num
  have a9 : (9 / 10 : K) ≤ 175 / 100 := by norm_num
  cases original <;> cases useB3 <;>
    simp only [boxes, originalBoxes, expandedBoxes, b3Box, List.cons_append, List.nil_append, List.pairwise_cons,
      List.mem_cons, forall_eq_or_imp, List.not_mem_nil, false_imp_iff, implies_true, forall_eq, List.Pairwise.nil,
      and_true, Box.sep, le_refl, a1, a2, a3, a4, a5, a6, a7, a8, a9, true_or, or_true, true_and]

theorem boxes_names (original useB3 : Bool) :
    ((boxes original useB3).map (Box.name (K := K))).Nodup ∧
      (∀ b ∈ (boxes original useB3 : List (Box K)), b.name ≠ "None" ∧ b.name ∈ swbNames useB3) := by
  cases original <;> cases useB3 <;>
    (simp only [boxes, originalBoxes, expandedBoxes, b3Box, List.cons_append, List.nil_append, List.map_cons,
      List.map_nil, List.mem_cons, forall_eq_or_imp, List.not_mem_nil, false_imp_iff, implies_true, swbNames]
     decide)

theorem class_spec (original useB3 : Bool) (d f p : K) :
    (∀ b ∈ (boxes original useB3 : List (Box K)), (swbClass original useB3 d f p = b.name ↔ b.Mem d f p)) ∧
      (swbClass original useB3 d f p = "None" ↔ ∀ b ∈ (boxes original useB3 : List (Box K)), ¬ b.Mem d f p) ∧
      (swbClass original useB3 d f p = "None" ∨
        swbClass original useB3 d f p ∈ (boxes original useB3).map (Box.name (K := K))) := by
  rw [swbClass_eq]
  exact chain_spec d f p _ (boxes_disjoint original useB3 d f p) (boxes_names original useB3).1
    (fun b hb => ((boxes_names original useB3).2 b hb).1)

end BoxLemmas

/-! ## C192: classes of the seasonal water balance -/

section C192

variable {K : Type} [Field K] [LinearOrder K] [IsStrictOrderedRing K]

/-- **C192** For either set of boundaries, with or without class B3: a point gets a class exactly when it lies in the
ranges of that class; it gets `None` exactly when it lies in no class; and no point lies in two classes. -/
theorem C192_regions (original useB3 : Bool) (d f p : K) :
    (∀ b ∈ (boxes original useB3 : List (Box K)), (swbClass original useB3 d f p = b.name ↔ b.Mem d f p)) ∧
      (swbClass original useB3 d f p = "None" ↔ ∀ b ∈ (boxes original useB3 : List (Box K)), ¬ b.Mem d f p) ∧
      (∀ b ∈ (boxes original useB3 : List (Box K)), ∀ b' ∈ (boxes original useB3 : List (Box K)),
        b.Mem d f p → b'.Mem d f p → b.name = b'.name) := by
  obtain ⟨h1, h2, -⟩ := class_spec original useB3 d f p
  refine ⟨h1, h2, fun b hb b' hb' m m' => ?_⟩
  rw [← (h1 b hb).2 m, ← (h1 b' hb').2 m']

/-- **C192** With the default options, for a timing index in `[-1, 1]`, a snow fraction in `[0, 1]` and an aridity in
`(0, 5.8]`: exactly which points have no class. -/
theorem C192_gaps (d f p : K) (hd : -1 ≤ d) (hd' : d ≤ 1) (hf : 0 ≤ f) (hf' : f ≤ 1) (hp : 0 < p) (hp' : p ≤ 58 / 10) :
    swbClass false true d f p = "None" ↔
      d = -1 ∨ (f = 0 ∧ d ≤ -(4 / 10)) ∨ (f = 0 ∧ d ≤ -(1 / 10) ∧ 9 / 10 < p) := by
  rw [(class_spec false true d f p).2.1]
  simp only [boxes, expandedBoxes, b3Box, List.cons_append, List.nil_append, List.mem_cons, forall_eq_or_imp,
    List.not_mem_nil, false_imp_iff, implies_true, and_true, Box.Mem, if_true, Bool.false_eq_true, if_false]
  constructor
  · rintro ⟨D1, D2, D3, C1, C2, B1, B2, B3, A1, A2, A3⟩
    by_contra hc
    push Not at hc
    obtain ⟨c1, c2, c3⟩ := hc
    have hd1 : -1 < d := lt_of_le_of_ne hd (Ne.symm c1)
    rcases eq_or_lt_of_le hf with h0 | h0
    · have h0' : f = 0 := h0.symm
      have q1 := c2 h0'
      by_cases hq : 9 / 10 < p
      · have q2 : -(1 / 10) < d := by by_contra hh; exact absurd hq (not_lt.2 (c3 h0' (not_lt.1 hh)))
        by_cases hr : p ≤ 15 / 10
        · exact C1 ⟨⟨q2, hd'⟩, ⟨hf, by rw [h0']; norm_num⟩, hq, hr⟩
        · exact C2 ⟨⟨q2, hd'⟩, ⟨hf, by rw [h0']; norm_num⟩, not_le.1 hr, hp'⟩
      · exact D1 ⟨⟨q1, hd'⟩, ⟨hf, h0'.le⟩, hp, not_lt.1 hq⟩
    · by_cases hb : 45 / 100 < f
      · by_cases g1 : p ≤ 75 / 100
        · exact B1 ⟨⟨hd1, hd'⟩, ⟨hb, hf'⟩, hp, g1⟩
        · by_cases g2 : p ≤ 175 / 100
          · exact B2 ⟨⟨hd1, hd'⟩, ⟨hb, hf'⟩, not_le.1 g1, g2⟩
          · exact B3 ⟨⟨hd1, hd'⟩, ⟨hb, hf'⟩, not_le.1 g2, hp'⟩
      · have hb := not_lt.1 hb
        by_cases ha : d ≤ -(1 / 10)
        · by_cases g1 : p ≤ 75 / 100
          · exact A1 ⟨⟨hd1, ha⟩, ⟨h0, hb⟩, hp, g1⟩
          · by_cases g2 : p ≤ 175 / 100
            · exact A2 ⟨⟨hd1, ha⟩, ⟨h0, hb⟩, not_le.1 g1, g2⟩
            · exact A3 ⟨⟨hd1, ha⟩, ⟨h0, hb⟩, not_le.1 g2, hp'⟩
        · have ha := not_le.1 ha
          by_cases hq : p ≤ 9 / 10
          · by_cases g : f ≤ 2 / 10
            · exact D2 ⟨⟨ha, hd'⟩, ⟨h0, g⟩, hp, hq⟩
            · exact D3 ⟨⟨ha, hd'⟩, ⟨not_le.1 g, hb⟩, hp, hq⟩
          · by_cases hr : p ≤ 15 / 10
            · exact C1 ⟨⟨ha, hd'⟩, ⟨hf, hb⟩, not_le.1 hq, hr⟩
            · exact C2 ⟨⟨ha, hd'⟩, ⟨hf, hb⟩, not_le.1 hr, hp'⟩
  · rintro h
    refine ⟨?_, ?_, ?_, ?_, ?_, ?_, ?_, ?_, ?_, ?_, ?_⟩ <;>
    · rintro ⟨⟨i1, i2⟩, ⟨i3, i4⟩, i5, i6⟩
      rcases h with rfl | ⟨rfl, h⟩ | ⟨rfl, h, h'⟩ <;> linarith

/-- **C192** With the default options every basin with a timing index above -1, some snow and an aridity of at most 5.8
has a class. -/
theorem C192_span_partial (d f p : K) (hd : -1 < d) (hd' : d ≤ 1) (hf : 0 < f) (hf' : f ≤ 1) (hp : 0 < p)
    (hp' : p ≤ 58 / 10) : swbClass false true d f p ≠ "None" := by
  intro h
  rcases (C192_gaps d f p hd.le hd' hf.le hf' hp hp').1 h with rfl | ⟨rfl, -⟩ | ⟨rfl, -⟩
  · exact absurd hd (lt_irrefl _)
  · exact absurd hf (lt_irrefl _)
  · exact absurd hf (lt_irrefl _)

/-- **C192** The expanded boundaries do not span the whole space: no class is left for a timing index of -1, whatever
the snow fraction and the aridity, nor for basins without snow with a timing index of at most -0.4, nor for an aridity
above 5.8. -/
theorem C192_violated (d f p : K) :
    swbClass false true (-1) f p = "None" ∧ (d ≤ -(4 / 10) → swbClass false true d 0 p = "None") ∧
      (58 / 10 < p → swbClass false true d f p = "None") := by
  refine ⟨?_, fun h => ?_, fun h => ?_⟩ <;>
  · rw [(class_spec false true _ _ _).2.1]
    simp only [boxes, expandedBoxes, b3Box, List.cons_append, List.nil_append, List.mem_cons, forall_eq_or_imp,
      List.not_mem_nil, false_imp_iff, implies_true, and_true, Box.Mem, if_true, Bool.false_eq_true, if_false]
    refine ⟨?_, ?_, ?_, ?_, ?_, ?_, ?_, ?_, ?_, ?_, ?_⟩ <;>
    · rintro ⟨⟨i1, i2⟩, ⟨i3, i4⟩, i5, i6⟩
      linarith

example : swbClass false true (-(1 / 2) : ℚ) (1 / 4) 1 = "A2" ∧ swbClass true false (1 / 2 : ℚ) (4 / 10) 1 = "None" ∧
    swbClass false true (1 / 2 : ℚ) (4 / 10) 1 = "C1" ∧ swbClass false true (-(1 / 2) : ℚ) 0 (1 / 2) = "None" := by
  decide +kernel

/-! ## C193: expanded boundaries -/

/-- **C193** Every basin that has a class by the boundaries of Berghuijs et al. keeps it by the expanded ones: with the
same choice of B3, and also when B3 is only added. -/
theorem C193_expanded (u u' : Bool) (hu : u = true → u' = true) (d f p : K)
    (h : swbClass true u d f p ≠ "None") : swbClass false u' d f p = swbClass true u d f p := by
  have hex : ∃ b ∈ (boxes true u : List (Box K)), b.Mem d f p := by
    by_contra hc
    push Not at hc
    exact h ((class_spec true u d f p).2.1.2 hc)
  obtain ⟨b, hb, hm⟩ := hex
  rw [((class_spec true u d f p).1 b hb).2 hm]
  suffices ∃ b' ∈ (boxes false u' : List (Box K)), b'.name = b.name ∧ b'.Mem d f p by
    obtain ⟨b', hb', hn, hm'⟩ := this
    rw [((class_spec false u' d f p).1 b' hb').2 hm', hn]
  clear h
  have hbig : ∀ b ∈ (boxes true u : List (Box K)), ∃ b' ∈ (boxes false u' : List (Box K)), b'.name = b.name ∧
      b'.dlo ≤ b.dlo ∧ b.dhi ≤ b'.dhi ∧ b'.closed = b.closed ∧ b'.flo ≤ b.flo ∧ b.fhi ≤ b'.fhi ∧ b'.plo ≤ b.plo ∧
      b.phi ≤ b'.phi := by
    cases u <;> cases u' <;> simp only [true_imp_iff, Bool.false_eq_true] at hu <;>
    · simp only [boxes, originalBoxes, expandedBoxes, b3Box, List.cons_append, List.nil_append, List.mem_cons,
        forall_eq_or_imp, List.not_mem_nil, false_imp_iff, implies_true, and_true, exists_eq_or_imp, or_false,
        exists_eq_left, String.reduceEq, false_and, false_or, true_and, or_false, le_refl]
      norm_num
  obtain ⟨b', hb', hn, h1, h2, h3, h4, h5, h6, h7⟩ := hbig b hb
  refine ⟨b', hb', hn, ?_⟩
  obtain ⟨⟨d1, d2⟩, ⟨f1, f2⟩, p1, p2⟩ := hm
  refine ⟨⟨lt_of_le_of_lt h1 d1, d2.trans h2⟩, ⟨?_, f2.trans h5⟩, lt_of_le_of_lt h6 p1, p2.trans h7⟩
  rw [h3]
  split_ifs at f1 ⊢
  · exact h4.trans f1
  · exact lt_of_le_of_lt h4 f1

example : swbClass true false (-(1 / 2) : ℚ) (1 / 4) 1 = "A2" ∧ swbClass true true (0 : ℚ) (1 / 2) 2 = "B3" := by
  decide +kernel

/-! ## C194: names of the classes -/

/-- **C194** With the same choice of B3 the class is one of the listed names, and every listed name is the class of
some basin; the defaults of the two functions differ, and with them there are basins with an unlisted class, namely
those of class B3. -/
theorem C194_names (original useB3 : Bool) (d f p : K) :
    swbClass original useB3 d f p ∈ swbNames useB3 ∧
      (∀ n ∈ swbNames useB3, ∃ d' f' p' : ℚ, swbClass original useB3 d' f' p' = n) ∧
      (swbClass false true d f p ∈ swbNames false ↔ swbClass false true d f p ≠ "B3") := by
  have hmem : ∀ o u, swbClass o u d f p ∈ swbNames u := by
    intro o u
    rcases (class_spec o u d f p).2.2 with h | h
    · rw [h]; cases u <;> decide
    · obtain ⟨b, hb, hn⟩ := List.mem_map.1 h
      rw [← hn]
      exact ((boxes_names o u).2 b hb).2
  refine ⟨hmem original useB3, ?_, ?_⟩
  · have key : ∀ o u, ∀ n ∈ swbNames u,
        ∃ q ∈ ([(-(1/2), 1/4, 1/2), (-(1/2), 1/4, 1), (-(1/2), 1/4, 2), (0, 1/2, 1/2), (0, 1/2, 1), (0, 1/2, 2),
          (1/2, 1/4, 1), (1/2, 1/4, 2), (0, 0, 3/4), (0, 1/10, 3/4), (0, 3/10, 3/4), (-1, 0, 0)] : List (ℚ × ℚ × ℚ)),
          swbClass o u q.1 q.2.1 q.2.2 = n := by decide +kernel
    intro n hn
    obtain ⟨q, -, hq⟩ := key original useB3 n hn
    exact ⟨_, _, _, hq⟩
  · have h := hmem false true
    constructor
    · intro h' e
      rw [e] at h'
      revert h'
      decide
    · intro e
      simp only [swbNames, if_true, List.mem_cons, List.not_mem_nil, or_false, Bool.false_eq_true, if_false] at h ⊢
      tauto

example : swbClass false true (0 : ℚ) (1 / 2) 2 = "B3" ∧ "B3" ∉ swbNames false := by decide +kernel

end C192

end Climate
