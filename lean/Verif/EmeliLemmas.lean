import Verif.EmeliModel
import Mathlib.Tactic.Linarith
import Mathlib.Tactic.Ring
import Mathlib.Tactic.NormNum
import Mathlib.Tactic.Positivity

/-! Helper lemmas about the EMELI model. -/

set_option autoImplicit false
set_option linter.unusedSectionVars false

namespace Emeli

universe u v

theorem bind_ok {ε : Type u} {α β : Type v} {a : Except ε α} {f : α → Except ε β} {y : β} :
    (a >>= f) = .ok y ↔ ∃ x, a = .ok x ∧ f x = .ok y := by
  cases a <;> simp [bind, Except.bind]

/-! ### Users and providers -/

/-- Components recorded for the name `v` in a list of (name, component) pairs. -/
def occ (seen : List (String × String)) (v : String) : List String :=
  seen.filterMap (fun p => if p.1 = v then some p.2 else none)

theorem mem_occ {seen : List (String × String)} {v c : String} :
    c ∈ occ seen v ↔ (v, c) ∈ seen := by
  simp only [occ, List.mem_filterMap]
  constructor
  · rintro ⟨⟨a, b⟩, h, h2⟩
    split_ifs at h2 with h3
    simp only [Option.some.injEq] at h2
    subst h2; simp only at h3; subst h3; exact h
  · intro h; exact ⟨(v, c), h, by simp⟩

theorem length_occ (seen : List (String × String)) (v : String) :
    (occ seen v).length = (seen.map Prod.fst).count v := by
  induction seen with
  | nil => rfl
  | cons a l ih =>
    simp only [occ, List.filterMap_cons, List.map_cons, List.count_cons] at ih ⊢
    by_cases h : a.1 = v
    · simp [h, ih]
    · simp [h, ih]

def Rep (seen : List (String × String)) (st : List String × (String → Option (List String))) :
    Prop :=
  (∀ v, v ∈ st.1 ↔ v ≠ "" ∧ occ seen v ≠ []) ∧
  (∀ v, st.2 v = if v ≠ "" ∧ occ seen v ≠ [] then some (occ seen v) else none)

theorem rep_addName {seen : List (String × String)}
    {st : List String × (String → Option (List String))} (h : Rep seen st) (c v : String) :
    Rep (seen ++ [(v, c)]) (addName c v st) := by
  have occ_app : ∀ u, occ (seen ++ [(v, c)]) u = occ seen u ++ (if v = u then [c] else []) := by
    intro u
    simp only [occ, List.filterMap_append, List.filterMap_cons, List.filterMap_nil]
    by_cases hu : v = u <;> simp [hu]
  obtain ⟨h1, h2⟩ := h
  unfold addName
  by_cases hv : v = ""
  · subst hv
    simp only [ne_eq, not_true_eq_false, if_false]
    refine ⟨fun u => ?_, fun u => ?_⟩
    · rw [h1, occ_app]
      by_cases hu : u = ""
      · simp [hu]
      · simp [Ne.symm hu]
    · rw [h2, occ_app]
      by_cases hu : u = ""
      · simp [hu]
      · simp [Ne.symm hu]
  · simp only [ne_eq, hv, not_false_eq_true, if_true]
    by_cases hm : v ∈ st.1
    · simp only [hm, not_true_eq_false, if_false]
      refine ⟨fun u => ?_, fun u => ?_⟩
      · rw [h1, occ_app]
        by_cases hu : v = u
        · subst hu; simp [hv, ((h1 v).1 hm).2]
        · simp [hu]
      · rw [occ_app]
        by_cases hu : v = u
        · subst hu
          simp [h2 v, hv, ((h1 v).1 hm).2]
        · show Function.update _ v _ u = _
          rw [Function.update_of_ne (Ne.symm hu), h2]; simp [hu]
    · simp only [hm, not_false_eq_true, if_true]
      have h0 : occ seen v = [] := by
        by_contra hne; exact hm ((h1 v).2 ⟨hv, hne⟩)
      refine ⟨fun u => ?_, fun u => ?_⟩
      · rw [List.mem_append, h1, occ_app]
        by_cases hu : v = u
        · subst hu; simp [hv]
        · simp [hu, Ne.symm hu]
      · rw [occ_app]
        by_cases hu : v = u
        · subst hu
          simp [hv, h0]
        · show Function.update _ v _ u = _
          rw [Function.update_of_ne (Ne.symm hu), Function.update_of_ne (Ne.symm hu), h2]; simp [hu]

def pairs (names : String → List String) (comps : List String) : List (String × String) :=
  comps.flatMap (fun c => (names c).map (fun v => (v, c)))

theorem rep_collect (names : String → List String) (comps : List String) :
    Rep (pairs names comps) (collect names comps) := by
  have inner : ∀ (c : String) (l : List String) seen st, Rep seen st →
      Rep (seen ++ l.map (fun v => (v, c))) (l.foldl (fun st v => addName c v st) st) := by
    intro c l
    induction l with
    | nil => intro seen st h; simpa using h
    | cons v l ih =>
      intro seen st h
      have := ih _ _ (rep_addName h c v)
      simpa using this
  have outer : ∀ (cs : List String) seen st, Rep seen st →
      Rep (seen ++ pairs names cs)
        (cs.foldl (fun st c => (names c).foldl (fun st v => addName c v st) st) st) := by
    intro cs
    induction cs with
    | nil => intro seen st h; simpa [pairs] using h
    | cons c cs ih =>
      intro seen st h
      have := ih _ _ (inner c (names c) _ _ h)
      simpa [pairs] using this
  have h0 : Rep [] (([] : List String), fun _ => none) := by
    refine ⟨fun v => ?_, fun v => ?_⟩ <;> simp [occ]
  simpa [collect] using outer comps [] _ h0

theorem mem_pairs {names : String → List String} {comps : List String} {v c : String} :
    (v, c) ∈ pairs names comps ↔ c ∈ comps ∧ v ∈ names c := by
  simp only [pairs, List.mem_flatMap, List.mem_map, Prod.mk.injEq]
  constructor
  · rintro ⟨a, ha, w, hw, rfl, rfl⟩; exact ⟨ha, hw⟩
  · rintro ⟨h1, h2⟩; exact ⟨c, h1, v, h2, rfl, rfl⟩

theorem map_fst_pairs (names : String → List String) (comps : List String) :
    (pairs names comps).map Prod.fst = comps.flatMap names := by
  induction comps with
  | nil => rfl
  | cons c cs ih =>
    have : (pairs names (c :: cs)) = (names c).map (fun v => (v, c)) ++ pairs names cs := by
      simp [pairs]
    rw [this, List.map_append, ih]
    simp [List.flatMap_cons, Function.comp_def]

variable {K : Type*} [Field K] [LinearOrder K] [IsStrictOrderedRing K]

theorem mem_allInputs {cfg : Config K} {v : String} :
    v ∈ allInputs cfg ↔ v ≠ "" ∧ ∃ u ∈ cfg.provs, v ∈ (cfg.decl u).inputs := by
  have h := (rep_collect (fun c => (cfg.decl c).inputs) cfg.provs).1 v
  unfold allInputs
  rw [h]
  refine and_congr_right fun _ => ?_
  rw [List.ne_nil_iff_exists_cons]
  constructor
  · rintro ⟨b, L, hb⟩
    have : b ∈ occ (pairs (fun c => (cfg.decl c).inputs) cfg.provs) v := by rw [hb]; simp
    rw [mem_occ, mem_pairs] at this
    exact ⟨b, this⟩
  · rintro ⟨u, hu⟩
    have : u ∈ occ (pairs (fun c => (cfg.decl c).inputs) cfg.provs) v := by
      rw [mem_occ, mem_pairs]; exact hu
    exact List.exists_cons_of_ne_nil (List.ne_nil_of_mem this)

/-- The list of provider names recorded for `v`. -/
def provOcc (cfg : Config K) (v : String) : List String :=
  occ (pairs (fun c => (cfg.decl c).outputs) cfg.provs) v

theorem mem_provOcc {cfg : Config K} {v c : String} :
    c ∈ provOcc cfg v ↔ c ∈ cfg.provs ∧ v ∈ (cfg.decl c).outputs := by
  rw [provOcc, mem_occ, mem_pairs]

theorem length_provOcc (cfg : Config K) (v : String) :
    (provOcc cfg v).length = (cfg.provs.flatMap (fun c => (cfg.decl c).outputs)).count v := by
  rw [provOcc, length_occ, map_fst_pairs]

theorem varProviders_eq (cfg : Config K) (v : String) :
    varProviders cfg v = if v ≠ "" ∧ provOcc cfg v ≠ [] then some (provOcc cfg v) else none :=
  (rep_collect (fun c => (cfg.decl c).outputs) cfg.provs).2 v

theorem check_iff (cfg : Config K) :
    checkUsersProviders cfg = true ↔ ∀ v ∈ allInputs cfg, (provOcc cfg v).length = 1 := by
  have aux : ∀ (l : List String) (ok : Bool), (∀ v ∈ l, v ≠ "") →
      ((l.foldl (fun ok v => match varProviders cfg v with
        | some l => if l.length > 1 then false else ok
        | none => false) ok) = true ↔ ok = true ∧ ∀ v ∈ l, (provOcc cfg v).length = 1) := by
    intro l
    induction l with
    | nil => intro ok _; simp
    | cons v l ih =>
      intro ok hl
      rw [List.foldl_cons, ih _ (fun u hu => hl u (List.mem_cons_of_mem _ hu))]
      have hv : v ≠ "" := hl v (by simp)
      rw [varProviders_eq]
      by_cases h0 : provOcc cfg v = []
      · simp [h0]
      · have : 0 < (provOcc cfg v).length := List.length_pos_of_ne_nil h0
        simp only [ne_eq, hv, not_false_eq_true, h0, and_self, if_true]
        by_cases h1 : (provOcc cfg v).length > 1
        · simp only [h1, if_true, List.mem_cons, forall_eq_or_imp]
          constructor
          · rintro ⟨h, _⟩; simp at h
          · rintro ⟨_, h, _⟩; omega
        · have : (provOcc cfg v).length = 1 := by omega
          simp [this]
  have := aux (allInputs cfg) true (fun v hv => (mem_allInputs.1 hv).1)
  simp only [true_and] at this
  exact this

/-! ### Time units -/

/-- Seconds per unit. -/
def secs (K : Type*) [Field K] (units : String) : K :=
  if units = "years" ∨ units = "y" then 365 * 24 * 60 * 60
  else if units = "months" then 365 * 24 * 60 * 60 / 12
  else if units = "days" ∨ units = "d" then 24 * 60 * 60
  else if units = "hours" ∨ units = "h" then 60 * 60
  else if units = "minutes" ∨ units = "m" then 60
  else 1

theorem convert_eq (t : K) (u : String) : convert t u = t * secs K u := by
  unfold convert secs
  split_ifs <;> simp

theorem secs_pos (u : String) : 0 < secs K u := by
  unfold secs
  split_ifs <;> norm_num

theorem convert_add (a b : K) (u : String) : convert (a + b) u = convert a u + convert b u := by
  simp only [convert_eq]; ring

theorem convert_pos {a : K} (h : 0 < a) (u : String) : 0 < convert a u := by
  rw [convert_eq]; exact mul_pos h (secs_pos u)

theorem convert_zero (u : String) : convert (0 : K) u = 0 := by
  rw [convert_eq]; simp

theorem tiConvert_ok {t x : K} {u : String} (h : tiConvert t u = .ok x) : x = convert t u := by
  unfold tiConvert at h
  unfold convert
  split_ifs at h ⊢ <;> (injection h with h; exact h.symm)

theorem tiConvert_isOk {t : K} {u : String} (h1 : u ≠ "hours") (h2 : u ≠ "h") :
    tiConvert t u = .ok (convert t u) := by
  unfold tiConvert convert
  simp only [h1, h2, or_self, if_false]
  split_ifs <;> rfl

theorem foldl_min_le (f : String → K) (l : List String) (m : K) :
    l.foldl (fun m d => min m (f d)) m ≤ m ∧
      ∀ c ∈ l, l.foldl (fun m d => min m (f d)) m ≤ f c := by
  induction l generalizing m with
  | nil => simp
  | cons a l ih =>
    simp only [List.foldl_cons, List.mem_cons, forall_eq_or_imp]
    obtain ⟨h1, h2⟩ := ih (min m (f a))
    exact ⟨h1.trans (min_le_left _ _), h1.trans (min_le_right _ _), h2⟩

theorem foldl_min_mem (f : String → K) (l : List String) (m : K) :
    l.foldl (fun m d => min m (f d)) m = m ∨
      ∃ c ∈ l, l.foldl (fun m d => min m (f d)) m = f c := by
  induction l generalizing m with
  | nil => simp
  | cons a l ih =>
    simp only [List.foldl_cons, List.mem_cons, exists_eq_or_imp]
    rcases ih (min m (f a)) with h | h
    · rw [h]
      rcases min_choice m (f a) with h' | h' <;> rw [h'] <;> simp
    · exact Or.inr (Or.inr h)

theorem frameworkDt_le {cfg : Config K} {fdt : K} (h : frameworkDt cfg = .ok fdt)
    {c : String} (hc : c ∈ cfg.provs) : fdt ≤ dtEntry cfg c := by
  unfold frameworkDt at h
  split at h
  · cases h
  · rename_i a l hl
    injection h with h
    rw [hl] at hc
    subst h
    rcases List.mem_cons.1 hc with rfl | hc
    · exact (foldl_min_le _ _ _).1
    · exact (foldl_min_le _ _ _).2 c hc

theorem frameworkDt_mem {cfg : Config K} {fdt : K} (h : frameworkDt cfg = .ok fdt) :
    ∃ c ∈ cfg.provs, fdt = dtEntry cfg c := by
  unfold frameworkDt at h
  split at h
  · cases h
  · rename_i a l hl
    injection h with h
    rw [hl]
    rcases foldl_min_mem (dtEntry cfg) l (dtEntry cfg a) with h' | ⟨c, hc, h'⟩
    · exact ⟨a, by simp, by rw [← h, h']⟩
    · exact ⟨c, by simp [hc], by rw [← h, h']⟩

/-! ### Windows -/

theorem createWins_eq (vs : List String) (t : K) (w : String → Option (Win K)) (u : String) :
    createWins vs t w u = if u ∈ vs then some ⟨t, t⟩ else w u := by
  induction vs generalizing w with
  | nil => simp [createWins]
  | cons v vs ih =>
    have : createWins (v :: vs) t w = createWins vs t (Function.update w v (some ⟨t, t⟩)) := rfl
    rw [this, ih]
    by_cases h : u ∈ vs
    · simp [h]
    · by_cases hv : u = v
      · subst hv; simp [h]
      · simp [h, hv]

theorem shiftWins_ok {vs : List String} {t : K} {w w' : String → Option (Win K)}
    (h : shiftWins vs t w = .ok w') (hn : vs.Nodup) (u : String) :
    w' u = if u ∈ vs then (w u).map (fun x => ⟨x.t2, t⟩) else w u := by
  induction vs generalizing w with
  | nil => simp only [shiftWins, Except.ok.injEq] at h; subst h; simp
  | cons v vs ih =>
    rw [shiftWins] at h
    split at h
    · cases h
    · rename_i x hx
      rw [List.nodup_cons] at hn
      rw [ih h hn.2]
      by_cases hu : u = v
      · subst hu; simp [hn.1, hx]
      · simp [hu]

theorem shiftWins_isOk {vs : List String} {t : K} {w : String → Option (Win K)}
    (h : ∀ v ∈ vs, (w v).isSome) : ∃ w', shiftWins vs t w = .ok w' := by
  induction vs generalizing w with
  | nil => exact ⟨w, rfl⟩
  | cons v vs ih =>
    rw [shiftWins]
    have hv := h v (by simp)
    cases hx : w v with
    | none => rw [hx] at hv; cases hv
    | some x =>
      simp only
      apply ih
      intro u hu
      by_cases huv : u = v
      · subst huv; simp
      · rw [Function.update_of_ne huv]; exact h u (by simp [hu])

end Emeli
