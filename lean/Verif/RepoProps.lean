import Verif.RepoSpec
import Verif.EmeliProps

/-!
# The repository's declarations (properties C95-C98)
-/

set_option autoImplicit false
set_option maxRecDepth 100000

namespace Repo

open RepoSpec

/-! ## The tables, checked once -/

theorem mem_repoList (c : Comp) : c ∈ repoList := by cases c <;> decide

theorem repoList_nodup : repoList.Nodup := by decide +kernel

/-- The repository components that provide `v`. -/
def providers (v : Var) : List Comp := repoList.filter (fun c => (decl c).outputs.elem v)

theorem mem_providers {v : Var} {c : Comp} : c ∈ providers v ↔ v ∈ (decl c).outputs := by
  simp [providers, mem_repoList]

theorem outputs_nodup (c : Comp) : (decl c).outputs.Nodup := by
  have h : repoList.all (fun c => decide ((decl c).outputs.Nodup)) = true := by decide +kernel
  simpa using List.all_eq_true.1 h c (mem_repoList c)

/-- Every input's providers are the members of one of the processes needed. -/
theorem needs_sound {c : Comp} {v : Var} (hv : v ∈ (decl c).inputs) :
    ∃ p ∈ needs c, ∀ d, d ∈ providers v ↔ d ∈ p.members := by
  have h : repoList.all (fun c => (decl c).inputs.all (fun v => (needs c).any (fun p =>
      repoList.all (fun d => (providers v).elem d == p.members.elem d)))) = true := by
    decide +kernel
  have h1 := List.all_eq_true.1 (List.all_eq_true.1 h c (mem_repoList c)) v hv
  obtain ⟨p, hp, h2⟩ := List.any_eq_true.1 h1
  refine ⟨p, hp, fun d => ?_⟩
  have h3 := List.all_eq_true.1 h2 d (mem_repoList d)
  rw [beq_iff_eq] at h3
  rw [← List.elem_iff, ← List.elem_iff, h3]

/-- Every process needed is the provider set of one of the inputs. -/
theorem needs_complete {c : Comp} {p : Process} (hp : p ∈ needs c) :
    ∃ v ∈ (decl c).inputs, ∀ d, d ∈ providers v ↔ d ∈ p.members := by
  have h : repoList.all (fun c => (needs c).all (fun p => (decl c).inputs.any (fun v =>
      repoList.all (fun d => (providers v).elem d == p.members.elem d)))) = true := by
    decide +kernel
  have h1 := List.all_eq_true.1 (List.all_eq_true.1 h c (mem_repoList c)) p hp
  obtain ⟨v, hv, h2⟩ := List.any_eq_true.1 h1
  refine ⟨v, hv, fun d => ?_⟩
  have h3 := List.all_eq_true.1 h2 d (mem_repoList d)
  rw [beq_iff_eq] at h3
  rw [← List.elem_iff, ← List.elem_iff, h3]

/-! ## C95: complete component sets -/

/-- The repository components as the framework sees them, with names spelled by `nv`, `nc`.
Status, time units and time steps come from the configuration files. -/
noncomputable def config {K : Type*} [Zero K] (nv : Var → String) (nc : Comp → String)
    (l : List Comp) (status units : Comp → String) (dt : Comp → K) : Emeli.Config K where
  provs := l.map nc
  decl := fun s => match repoList.find? (fun c => decide (nc c = s)) with
    | some c => ⟨status c, units c, dt c, (decl c).inputs.map nv, (decl c).outputs.map nv⟩
    | none => ⟨"", "", 0, [], []⟩

theorem config_decl {K : Type*} [Zero K] {nv : Var → String} {nc : Comp → String}
    (hc : Function.Injective nc) (l : List Comp) (status units : Comp → String) (dt : Comp → K)
    (c : Comp) :
    (config nv nc l status units dt).decl (nc c) = ⟨status c, units c, dt c,
      (decl c).inputs.map nv, (decl c).outputs.map nv⟩ := by
  have h : (repoList.find? (fun d => decide (nc d = nc c))).isSome :=
    List.find?_isSome.2 ⟨c, mem_repoList c, by simp⟩
  obtain ⟨d, hd⟩ := Option.isSome_iff_exists.1 h
  have h2 : d = c := hc (by simpa using List.find?_some hd)
  subst h2
  simp only [config, hd]

/-- How often `v` is listed among the outputs of a list of components. -/
theorem count_outputs (v : Var) : ∀ l : List Comp,
    (l.flatMap (fun c => (decl c).outputs)).count v
      = (l.filter (fun c => decide (c ∈ providers v))).length
  | [] => by simp
  | c :: l => by
    rw [List.flatMap_cons, List.count_append, count_outputs v l]
    by_cases h : v ∈ (decl c).outputs
    · rw [List.count_eq_one_of_mem (outputs_nodup c) h,
        List.filter_cons_of_pos (by simpa [mem_providers] using h), List.length_cons]
      omega
    · rw [List.count_eq_zero_of_not_mem h,
        List.filter_cons_of_neg (by simpa [mem_providers] using h)]
      omega

theorem length_filter_one {l : List Comp} (hl : l.Nodup) (q : Comp → Prop) [DecidablePred q] :
    (l.filter (fun c => decide (q c))).length = 1 ↔ ∃! c, c ∈ l ∧ q c := by
  rw [List.length_eq_one_iff]
  constructor
  · rintro ⟨a, ha⟩
    have h : ∀ c, (c ∈ l ∧ q c) ↔ c = a := fun c => by
      have : c ∈ l.filter (fun c => decide (q c)) ↔ c ∈ [a] := by rw [ha]
      simpa using this
    exact ⟨a, (h a).2 rfl, fun b hb => (h b).1 hb⟩
  · rintro ⟨a, ⟨ha, hq⟩, hu⟩
    refine ⟨a, ?_⟩
    have hn : (l.filter (fun c => decide (q c))).Nodup := hl.filter _
    have hm : a ∈ l.filter (fun c => decide (q c)) := by simp [ha, hq]
    have hall : ∀ b ∈ l.filter (fun c => decide (q c)), b = a := fun b hb => by
      rw [List.mem_filter] at hb
      exact hu b ⟨hb.1, by simpa using hb.2⟩
    generalize l.filter (fun c => decide (q c)) = m at hn hm hall
    match m, hn, hm, hall with
    | [b], _, _, h => rw [h b (by simp)]
    | b :: d :: m, hn, _, h =>
      have h1 := h b (by simp); have h2 := h d (by simp)
      rw [h1, h2] at hn; simp at hn

/-- A variable of the configuration is listed once iff exactly one component of the set
provides it. -/
theorem listedOnce_iff {K : Type*} [Field K] {nv : Var → String} {nc : Comp → String}
    (hv : Function.Injective nv) (hc : Function.Injective nc) {l : List Comp} (hl : l.Nodup)
    (status units : Comp → String) (dt : Comp → K) (v : Var) :
    EmeliSpec.ListedOnce (config nv nc l status units dt) (nv v) ↔
      ∃! c, c ∈ l ∧ c ∈ providers v := by
  unfold EmeliSpec.ListedOnce
  have h : (config nv nc l status units dt).provs.flatMap
      (fun c => ((config nv nc l status units dt).decl c).outputs)
      = (l.flatMap (fun c => (decl c).outputs)).map nv := by
    show (l.map nc).flatMap _ = _
    rw [List.flatMap_map, List.map_flatMap]
    congr 1
    funext c
    rw [config_decl hc]
  rw [h, List.count_map_of_injective _ _ hv, count_outputs, length_filter_one hl]

/-- **C95.** For every set of repository components (in any order): the framework accepts it
exactly when, for every component in it and every process that component needs, exactly one
component of the set implements the process. -/
theorem C95_accepted_iff_complete {K : Type*} [Field K] [LinearOrder K] [IsStrictOrderedRing K] {nv : Var → String}
    {nc : Comp → String} (hv : Function.Injective nv) (hne : ∀ v, nv v ≠ "")
    (hc : Function.Injective nc) {l : List Comp} (hl : l.Nodup)
    (status units : Comp → String) (dt : Comp → K) :
    Emeli.checkUsersProviders (config nv nc l status units dt) = true ↔
      ∀ c ∈ l, ∀ p ∈ needs c, ExactlyOne l p := by
  rw [Emeli.C16_check_iff_listed_once]
  constructor
  · intro h c hcl p hp
    obtain ⟨v, hvi, hd⟩ := needs_complete hp
    have h1 := h (nc c) (List.mem_map_of_mem hcl) (nv v)
      (by rw [config_decl hc]; exact List.mem_map_of_mem hvi) (hne v)
    rw [listedOnce_iff hv hc hl] at h1
    simpa only [ExactlyOne, hd] using h1
  · intro h u hu w hw _
    obtain ⟨c, hcl, rfl⟩ := List.mem_map.1 hu
    rw [config_decl hc] at hw
    obtain ⟨v, hvi, rfl⟩ := List.mem_map.1 hw
    obtain ⟨p, hp, hd⟩ := needs_sound hvi
    rw [listedOnce_iff hv hc hl]
    simpa only [ExactlyOne, hd] using h c hcl p hp

theorem exactlyOne_of_subset {l : List Comp} {p q : Process} (h : ExactlyOne l p)
    (hpq : ∀ c ∈ l, c ∈ p.members ↔ c ∈ q.members) : ExactlyOne l q := by
  obtain ⟨a, ⟨ha, hm⟩, hu⟩ := h
  exact ⟨a, ⟨ha, (hpq a ha).1 hm⟩, fun b hb => hu b ⟨hb.1, (hpq b hb.1).2 hb.2⟩⟩

/-- **C95.** For every set of components with the hydrologic driver (and without the two
components that have no declarations of their own): it is accepted exactly when it has exactly
one component for each of channel flow, evapotranspiration, infiltration, saturated zone and
meteorology, exactly one that melts snow (snow or glacier), exactly one with ice (glacier or ice
flow), and no landscape evolution component. -/
theorem C95_hydrologic_model {K : Type*} [Field K] [LinearOrder K] [IsStrictOrderedRing K]
    {nv : Var → String} {nc : Comp → String} (hv : Function.Injective nv) (hne : ∀ v, nv v ≠ "")
    (hc : Function.Injective nc) {l : List Comp} (hl : l.Nodup)
    (hd : Comp.topoflow_driver ∈ l) (h1 : Comp.erode_d8_local ∉ l) (h2 : Comp.dem_smoother ∉ l)
    (status units : Comp → String) (dt : Comp → K) :
    Emeli.checkUsersProviders (config nv nc l status units dt) = true ↔
      ExactlyOne l .channels ∧ ExactlyOne l .evap ∧ ExactlyOne l .infil ∧ ExactlyOne l .satzone ∧
      ExactlyOne l .met ∧ ExactlyOne l .melt ∧ ExactlyOne l .ice ∧ Comp.erode_d8_global ∉ l := by
  rw [C95_accepted_iff_complete hv hne hc hl]
  constructor
  · intro h
    have hdr := h _ hd
    have hin := hdr .infil (by simp [needs])
    have hsz := hdr .satzone (by simp [needs])
    refine ⟨hdr _ (by simp [needs]), hdr _ (by simp [needs]), hin, hsz, hdr _ (by simp [needs]),
      hdr _ (by simp [needs]), hdr _ (by simp [needs]), fun he => ?_⟩
    obtain ⟨i, ⟨hi, him⟩, _⟩ := hin
    have htopo : ExactlyOne l .topo := h i hi .topo (by
      simp only [Process.members, List.mem_cons, List.not_mem_nil, or_false] at him
      rcases him with rfl | rfl | rfl | rfl <;> simp [needs])
    obtain ⟨s, ⟨hs, hsm⟩, _⟩ := hsz
    obtain ⟨t, _, htu⟩ := htopo
    have e1 := htu s ⟨hs, by
      simp only [Process.members, List.mem_cons, List.not_mem_nil, or_false] at hsm ⊢
      rcases hsm with rfl | rfl <;> simp⟩
    have e2 := htu _ ⟨he, by simp [Process.members]⟩
    rw [← e2] at e1; subst e1
    simp [Process.members] at hsm
  · rintro ⟨a1, a2, a3, a4, a5, a6, a7, a8⟩ c hcl p hp
    have a9 : ExactlyOne l .topo := exactlyOne_of_subset a4 (fun d hdl => by
      have : d ≠ .erode_d8_global := fun e => a8 (e ▸ hdl)
      simp [Process.members, this])
    have : p ≠ .placeholder := by
      rintro rfl
      cases c <;> simp [needs] at hp
      · exact h1 hcl
      · exact h2 hcl
    cases p <;> first | assumption | exact absurd rfl this

/-- A model with both a snow component and the glacier component is rejected. -/
theorem C95_snow_and_glacier_rejected {K : Type*} [Field K] [LinearOrder K]
    [IsStrictOrderedRing K]
    {nv : Var → String} {nc : Comp → String} (hv : Function.Injective nv) (hne : ∀ v, nv v ≠ "")
    (hc : Function.Injective nc) {l : List Comp} (hl : l.Nodup)
    (hd : Comp.topoflow_driver ∈ l) (hg : Comp.tf_glacier_energy_balance ∈ l)
    (hs : Comp.tf_snow_degree_day ∈ l ∨ Comp.tf_snow_energy_balance ∈ l)
    (status units : Comp → String) (dt : Comp → K) :
    Emeli.checkUsersProviders (config nv nc l status units dt) = false := by
  rw [← Bool.not_eq_true, C95_accepted_iff_complete hv hne hc hl]
  intro h
  obtain ⟨a, _, hu⟩ := h _ hd .melt (by simp [needs])
  have e1 := hu _ ⟨hg, by simp [Process.members]⟩
  rcases hs with hs | hs
  · have e2 := hu _ ⟨hs, by simp [Process.members]⟩
    rw [← e1] at e2; exact absurd e2 (by decide)
  · have e2 := hu _ ⟨hs, by simp [Process.members]⟩
    rw [← e1] at e2; exact absurd e2 (by decide)

/-- A model with neither the glacier nor the ice-flow component is rejected, also where there is
no ice. -/
theorem C95_no_ice_rejected {K : Type*} [Field K] [LinearOrder K] [IsStrictOrderedRing K]
    {nv : Var → String} {nc : Comp → String} (hv : Function.Injective nv) (hne : ∀ v, nv v ≠ "")
    (hc : Function.Injective nc) {l : List Comp} (hl : l.Nodup)
    (hd : Comp.topoflow_driver ∈ l) (hg : Comp.tf_glacier_energy_balance ∉ l)
    (hi : Comp.tf_ice_gc2d ∉ l) (status units : Comp → String) (dt : Comp → K) :
    Emeli.checkUsersProviders (config nv nc l status units dt) = false := by
  rw [← Bool.not_eq_true, C95_accepted_iff_complete hv hne hc hl]
  intro h
  obtain ⟨a, ⟨ha, hm⟩, _⟩ := h _ hd .ice (by simp [needs])
  simp only [Process.members, List.mem_cons, List.not_mem_nil, or_false] at hm
  rcases hm with rfl | rfl
  · exact hi ha
  · exact hg ha

/-- A concrete set that is accepted: the hypotheses and the conditions can be met. -/
example : ∃ l : List Comp, l.Nodup ∧ Comp.topoflow_driver ∈ l ∧ Comp.erode_d8_local ∉ l ∧
    Comp.dem_smoother ∉ l ∧ ∀ c ∈ l, ∀ p ∈ needs c,
      (l.filter (fun d => decide (d ∈ p.members))).length = 1 :=
  ⟨[.tf_meteorology, .tf_channels_kin_wave, .tf_snow_degree_day, .tf_ice_gc2d,
    .tf_evap_priestley_taylor, .tf_infil_green_ampt, .tf_satzone_darcy_layers,
    .tf_diversions_fraction_method, .topoflow_driver], by decide +kernel⟩

/-! ## C96: connections -/

/-- For every provider, user and shared variable: the connection is made, without a warning and
without a unit conversion, by both frameworks. -/
theorem C96_units_agree {p u : Comp} {v : Var} (hp : v ∈ (decl p).outputs)
    (hu : v ∈ (decl u).inputs) (hn : v ≠ .None) :
    (∃ s, getVarUnits p v = .ok s ∧ getVarUnits u v = .ok s) ∧
    connect p u v = .ok .plain ∧ connectMulti p u v = .ok .plain := by
  have h : repoList.all (fun p => (decl p).outputs.all (fun v => decide (v = .None) ||
      repoList.all (fun u => !((decl u).inputs.elem v) ||
        (((decl p).names.lookup v).isSome && ((decl u).names.lookup v).isSome &&
         ((decl p).units.lookup v).isSome &&
         decide ((decl p).units.lookup v = (decl u).units.lookup v))))) = true := by
    decide +kernel
  have h1 := List.all_eq_true.1 (List.all_eq_true.1 h p (mem_repoList p)) v hp
  have h2 : repoList.all (fun u => !((decl u).inputs.elem v) ||
        (((decl p).names.lookup v).isSome && ((decl u).names.lookup v).isSome &&
         ((decl p).units.lookup v).isSome &&
         decide ((decl p).units.lookup v = (decl u).units.lookup v))) = true := by
    simpa only [hn, decide_false, Bool.false_or] using h1
  have h3 := List.all_eq_true.1 h2 u (mem_repoList u)
  rw [List.elem_eq_true_of_mem hu] at h3
  simp only [Bool.not_true, Bool.false_or, Bool.and_eq_true, decide_eq_true_eq] at h3
  obtain ⟨⟨⟨a, b⟩, c⟩, d⟩ := h3
  obtain ⟨pa, ha⟩ := Option.isSome_iff_exists.1 a
  obtain ⟨ub, hb⟩ := Option.isSome_iff_exists.1 b
  obtain ⟨s, hs⟩ := Option.isSome_iff_exists.1 c
  have ht := hs; rw [d] at ht
  have e1 : getVarName p v = .ok pa := by unfold getVarName; rw [ha]
  have e2 : getVarName u v = .ok ub := by unfold getVarName; rw [hb]
  have e3 : getVarUnits p v = .ok s := by unfold getVarUnits; rw [hs]
  have e4 : getVarUnits u v = .ok s := by unfold getVarUnits; rw [ht]
  refine ⟨⟨s, e3, e4⟩, ?_, ?_⟩
  · unfold connect; rw [e1, e2, e3, e4]; simp [bind, Except.bind, pure, Except.pure]
  · unfold connectMulti; rw [e1, e2, e3, e4]; simp [bind, Except.bind, pure, Except.pure]

theorem mapM_ok {α β : Type} (f : α → Except String β) (b : β) :
    ∀ (l : List α), (∀ a ∈ l, f a = .ok b) → l.mapM f = .ok (l.map (fun _ => b))
  | [], _ => rfl
  | a :: l, h => by
    rw [List.mapM_cons, h a (by simp), mapM_ok f b l (fun x hx => h x (by simp [hx]))]
    rfl

theorem mapM_error {α β : Type} (f : α → Except String β) :
    ∀ (l : List α), (∃ a ∈ l, ∃ e, f a = .error e) → ∃ e, l.mapM f = .error e
  | [], h => by simp at h
  | a :: l, h => by
    rw [List.mapM_cons]
    cases ha : f a with
    | error e => exact ⟨e, rfl⟩
    | ok b =>
      obtain ⟨x, hx, e, he⟩ := h
      rcases List.mem_cons.1 hx with rfl | hx
      · rw [ha] at he; exact absurd he (by simp)
      · obtain ⟨e', h'⟩ := mapM_error f l ⟨x, hx, e, he⟩
        exact ⟨e', by rw [h']; rfl⟩

/-- Only the two components without declarations of their own name the placeholder variable. -/
theorem none_inputs {c : Comp} (h : Var.None ∈ (decl c).inputs) :
    c = .erode_d8_local ∨ c = .dem_smoother := by
  have h0 : repoList.all (fun c => !((decl c).inputs.elem .None) ||
      (decide (c = .erode_d8_local) || decide (c = .dem_smoother))) = true := by decide +kernel
  have h1 := List.all_eq_true.1 h0 c (mem_repoList c)
  rw [List.elem_eq_true_of_mem h] at h1
  simpa using h1

/-- **C96.** For every set of components, whatever its order, all connections are made, without
a warning and without a unit conversion (so the missing conversion package is never needed),
unless the set has one of the two components without declarations of their own. -/
theorem C96_all_connected {l : List Comp}
    (h : Comp.erode_d8_local ∉ l ∧ Comp.dem_smoother ∉ l) :
    (∃ r, connectAll connect l = .ok r ∧ ∀ x ∈ r, x = .plain) ∧
    (∃ r, connectAll connectMulti l = .ok r ∧ ∀ x ∈ r, x = .plain) := by
  have key : ∀ x ∈ l.flatMap (fun p => (decl p).outputs.flatMap
      (fun v => (usersOf l v).map (fun u => (p, u, v)))),
      connect x.1 x.2.1 x.2.2 = .ok .plain ∧ connectMulti x.1 x.2.1 x.2.2 = .ok .plain := by
    intro x hx
    obtain ⟨p, _, hx⟩ := List.mem_flatMap.1 hx
    obtain ⟨v, hv, hx⟩ := List.mem_flatMap.1 hx
    obtain ⟨u, hu, rfl⟩ := List.mem_map.1 hx
    obtain ⟨hul, huv⟩ := List.mem_filter.1 hu
    have huv : v ∈ (decl u).inputs := by simpa using huv
    refine (C96_units_agree hv huv ?_).2
    rintro rfl
    rcases none_inputs huv with rfl | rfl
    · exact h.1 hul
    · exact h.2 hul
  refine ⟨⟨_, mapM_ok _ .plain _ (fun x hx => (key x hx).1), ?_⟩,
    ⟨_, mapM_ok _ .plain _ (fun x hx => (key x hx).2), ?_⟩⟩ <;>
  · intro x hx
    obtain ⟨_, _, rfl⟩ := List.mem_map.1 hx; rfl

/-- A set with one of these two components cannot be connected: the connection of the
placeholder variable to itself fails. -/
theorem C96_placeholder_raises {l : List Comp}
    (h : Comp.erode_d8_local ∈ l ∨ Comp.dem_smoother ∈ l) :
    (∃ e, connectAll connect l = .error e) ∧ (∃ e, connectAll connectMulti l = .error e) := by
  have key : ∀ c : Comp, c = .erode_d8_local ∨ c = .dem_smoother → c ∈ l →
      (c, c, Var.None) ∈ l.flatMap (fun p => (decl p).outputs.flatMap
        (fun v => (usersOf l v).map (fun u => (p, u, v)))) ∧
      (∃ e, connect c c .None = .error e) ∧ (∃ e, connectMulti c c .None = .error e) := by
    intro c hc hl
    have h1 : Var.None ∈ (decl c).outputs ∧ Var.None ∈ (decl c).inputs := by
      rcases hc with rfl | rfl <;> decide
    refine ⟨List.mem_flatMap.2 ⟨c, hl, List.mem_flatMap.2 ⟨.None, h1.1, List.mem_map.2
      ⟨c, List.mem_filter.2 ⟨hl, by simpa using h1.2⟩, rfl⟩⟩⟩, ?_⟩
    rcases hc with rfl | rfl <;> exact ⟨⟨"KeyError", rfl⟩, ⟨"KeyError", rfl⟩⟩
  obtain ⟨c, hc, hl⟩ : ∃ c : Comp, (c = .erode_d8_local ∨ c = .dem_smoother) ∧ c ∈ l := by
    rcases h with h | h
    · exact ⟨_, Or.inl rfl, h⟩
    · exact ⟨_, Or.inr rfl, h⟩
  obtain ⟨a, b, d⟩ := key c hc hl
  exact ⟨mapM_error _ _ ⟨_, a, b⟩, mapM_error _ _ ⟨_, a, d⟩⟩

/-! ## C97: declared variables can be read -/

/-- The declared variables that `get_var_name` (and with it `get_value`) does not know. -/
def unnamed : List (Comp × Var) :=
  [.tf_channels_kin_wave, .tf_channels_diff_wave, .tf_channels_dynam_wave].map
    (fun c => (c, .«channel_water_x-section_top__width»)) ++
  [(.tf_meteorology, .«atmosphere_bottom_air__neutral_bulk_aerodynamic_conductance»)] ++
  [.«model_soil_layer-0__porosity», .«model_soil_layer-0__saturated_thickness»,
   .«model_soil_layer-0__thickness», .«model_soil_layer-1__porosity»,
   .«model_soil_layer-1__saturated_thickness», .«model_soil_layer-1__thickness»,
   .«model_soil_layer-2__porosity», .«model_soil_layer-2__saturated_thickness»,
   .«model_soil_layer-2__thickness»].map (fun v => (.tf_satzone_darcy_layers, v)) ++
  [.«ngen::mass_in», .«ngen::mass_out», .«ngen::mass_stored», .«ngen::mass_leaked»].map
    (fun v => (.topoflow_driver, v)) ++
  [(.erode_d8_local, .None), (.dem_smoother, .None)]

/-- The declared variables that `get_var_units` does not know. -/
def unitless : List (Comp × Var) :=
  [.tf_channels_kin_wave, .tf_channels_diff_wave, .tf_channels_dynam_wave].map
    (fun c => (c, .«channel_water_x-section_top__width»)) ++
  [(.tf_meteorology, .«atmosphere_bottom_air__neutral_bulk_aerodynamic_conductance»),
   (.tf_glacier_energy_balance, .«cryosphere__domain_time_integral_of_melt_volume_flux»),
   (.erode_d8_local, .None), (.dem_smoother, .None)]

/-- **C97, exactly.** For every component and every variable it declares as an input or output:
its internal name is known unless the pair is one of the 19 listed, and its units are known
unless the pair is one of the 7 listed. -/
theorem C97_declared_known_partial (c : Comp) (v : Var)
    (hv : v ∈ (decl c).inputs ∨ v ∈ (decl c).outputs) :
    ((∃ a, getVarName c v = .ok a) ↔ (c, v) ∉ unnamed) ∧
    ((∃ s, getVarUnits c v = .ok s) ↔ (c, v) ∉ unitless) := by
  have h : repoList.all (fun c => ((decl c).inputs ++ (decl c).outputs).all (fun v =>
      (((decl c).names.lookup v).isSome == !(unnamed.elem (c, v))) &&
      (((decl c).units.lookup v).isSome == !(unitless.elem (c, v))))) = true := by decide +kernel
  have h1 := List.all_eq_true.1 (List.all_eq_true.1 h c (mem_repoList c)) v
    (List.mem_append.2 hv)
  rw [Bool.and_eq_true, beq_iff_eq, beq_iff_eq] at h1
  obtain ⟨a, b⟩ := h1
  constructor
  · unfold getVarName
    cases hl : (decl c).names.lookup v with
    | none => rw [hl] at a; simpa using a
    | some x => rw [hl] at a; simpa using a
  · unfold getVarUnits
    cases hl : (decl c).units.lookup v with
    | none => rw [hl] at b; simpa using b
    | some x => rw [hl] at b; simpa using b

/-- The full property is false: the channel components declare a variable that cannot be read. -/
theorem C97_violated : ¬ ∀ (c : Comp) (v : Var), v ∈ (decl c).outputs → ∃ a, getVarName c v = .ok a := by
  intro h
  obtain ⟨a, ha⟩ := h .tf_channels_kin_wave .«channel_water_x-section_top__width» (by decide +kernel)
  exact absurd ha (by
    have : getVarName .tf_channels_kin_wave .«channel_water_x-section_top__width»
      = .error "KeyError" := by decide +kernel
    rw [this]; simp)

/-! ## C98: no two variables share an attribute -/

theorem lookup_mem {α β : Type} [DecidableEq α] {l : List (α × β)} {a : α} {b : β}
    (h : l.lookup a = some b) : (a, b) ∈ l := by
  induction l with
  | nil => simp at h
  | cons x l ih =>
    obtain ⟨k, w⟩ := x
    rw [List.lookup_cons] at h
    split at h
    · next heq => rw [beq_iff_eq] at heq; simp only [Option.some.injEq] at h; simp [heq, h]
    · exact List.mem_cons_of_mem _ (ih h)

/-- **C98.** In every component, different variables are kept under different internal names, so
that setting one never changes the value read for another. -/
theorem C98_names_injective (c : Comp) {v w : Var} {a : Attr} (hv : getVarName c v = .ok a)
    (hw : getVarName c w = .ok a) : v = w := by
  have h : repoList.all (fun c => decide (((decl c).names.map Prod.snd).Nodup)) = true := by
    decide +kernel
  have h1 : ((decl c).names.map Prod.snd).Nodup := by
    simpa using List.all_eq_true.1 h c (mem_repoList c)
  have aux : ∀ {v : Var}, getVarName c v = .ok a → (v, a) ∈ (decl c).names := by
    intro v hv
    apply lookup_mem
    unfold getVarName at hv
    split at hv
    · next h => simp only [Except.ok.injEq] at hv; rw [h, hv]
    · exact absurd hv (by simp)
  have := List.inj_on_of_nodup_map h1 (aux hv) (aux hw) rfl
  simpa using this

example : getVarName .tf_channels_kin_wave .«channel_water_x-section__volume_flow_rate» = .ok .Q := by
  decide +kernel

end Repo
