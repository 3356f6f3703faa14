import Verif.EmeliLemmas

/-! Invariants of a coupled run (helper file for `EmeliProps`). -/

set_option autoImplicit false
set_option linter.unusedSectionVars false

namespace Emeli

variable {K : Type*} [Field K] [LinearOrder K] [IsStrictOrderedRing K]

/-- A component's clock in seconds. -/
def clk (cfg : Config K) (s : St K) (c : String) : K := convert (s.ctime c) (cfg.decl c).units

/-- A component's time step in seconds. -/
def cdt (cfg : Config K) (c : String) : K := convert (cfg.decl c).dt (cfg.decl c).units

/-- Hypotheses on a configuration: names distinct, each component's status is spelled
'Enabled' or is some spelling of 'disabled', positive time steps. -/
structure Good (cfg : Config K) : Prop where
  nodup : cfg.provs.Nodup
  status : ∀ c ∈ cfg.provs, (cfg.decl c).status = "Enabled" ∨
    (cfg.decl c).status.toLower = "disabled"
  dt_pos : ∀ c ∈ cfg.provs, 0 < (cfg.decl c).dt

theorem enabled_not_disabled {st : String} (h : st = "Enabled") : isDisabled st = false := by
  subst h; decide +kernel

theorem cdt_pos {cfg : Config K} (hg : Good cfg) {c : String} (hc : c ∈ cfg.provs) :
    0 < cdt cfg c := convert_pos (hg.dt_pos c hc) _

structure Inv (cfg : Config K) (s : St K) : Prop where
  en : ∀ c ∈ cfg.provs, (cfg.decl c).status = "Enabled" →
    s.cstat c = "updated" ∧ s.ctime c = s.nupd c * (cfg.decl c).dt ∧
    ∀ v ∈ varsProvided cfg c, s.win v = some ⟨clk cfg s c - cdt cfg c, clk cfg s c⟩
  dis : ∀ c ∈ cfg.provs, (cfg.decl c).status.toLower = "disabled" →
    s.cstat c = "initialized" ∧ s.ctime c = 0 ∧ s.nupd c = 0

theorem varsProvided_prov {cfg : Config K} (hc : checkUsersProviders cfg = true)
    {c v : String} (hcp : c ∈ cfg.provs) (hv : v ∈ varsProvided cfg c) :
    provOcc cfg v = [c] := by
  simp only [varsProvided, List.mem_filter, decide_eq_true_eq] at hv
  have h1 := (check_iff cfg).1 hc v hv.2
  have h2 : c ∈ provOcc cfg v := mem_provOcc.2 ⟨hcp, hv.1⟩
  obtain ⟨a, ha⟩ := List.length_eq_one_iff.1 h1
  rw [ha] at h2 ⊢
  simp only [List.mem_singleton] at h2
  rw [h2]

theorem varsProvided_unique {cfg : Config K} (hc : checkUsersProviders cfg = true)
    {c d v : String} (hcp : c ∈ cfg.provs) (hdp : d ∈ cfg.provs)
    (hv : v ∈ varsProvided cfg c) (hv' : v ∈ varsProvided cfg d) : c = d := by
  have h1 := varsProvided_prov hc hcp hv
  have h2 := varsProvided_prov hc hdp hv'
  rw [h1] at h2; simpa using h2

theorem varsProvided_nodup {cfg : Config K} (hc : checkUsersProviders cfg = true)
    {c : String} (hcp : c ∈ cfg.provs) : (varsProvided cfg c).Nodup := by
  rw [List.nodup_iff_count_le_one]
  intro v
  by_cases hv : v ∈ varsProvided cfg c
  · have hv' := hv
    simp only [varsProvided, List.mem_filter, decide_eq_true_eq] at hv'
    have h1 := (check_iff cfg).1 hc v hv'.2
    rw [length_provOcc] at h1
    calc (varsProvided cfg c).count v ≤ (cfg.decl c).outputs.count v :=
          List.Sublist.count_le v List.filter_sublist
      _ ≤ (cfg.provs.flatMap (fun c => (cfg.decl c).outputs)).count v := by
          obtain ⟨a, b, hab⟩ := List.append_of_mem hcp
          rw [hab, List.flatMap_append, List.flatMap_cons, List.count_append, List.count_append]
          omega
      _ ≤ 1 := h1.le
  · rw [List.count_eq_zero_of_not_mem hv]; exact Nat.zero_le _

/-! ### Requests -/

theorem getRequiredVars_ok {cfg : Config K} {c : String} {t : K} {vs : List String} {s s' : St K}
    (h : getRequiredVars cfg c t vs s = .ok s') :
    ∃ rs : List (Request K), s' = { s with log := s.log ++ rs } ∧
      ∀ r ∈ rs, r.user = c ∧ r.time = t ∧ r.var ∈ vs ∧
        (∃ l, varProviders cfg r.var = some (r.prov :: l)) ∧
        s.cstat r.prov ≠ "initialized" ∧ s.win r.var = some r.win := by
  induction vs generalizing s with
  | nil =>
    simp only [getRequiredVars, Except.ok.injEq] at h
    subst h; exact ⟨[], by simp, by simp⟩
  | cons v vs ih =>
    rw [getRequiredVars, bind_ok] at h
    obtain ⟨s1, h1, h2⟩ := h
    obtain ⟨rs, hs', hrs⟩ := ih h2
    have key : ∃ r1 : List (Request K), s1 = { s with log := s.log ++ r1 } ∧
      ∀ r ∈ r1, r.user = c ∧ r.time = t ∧ r.var ∈ v :: vs ∧
        (∃ l, varProviders cfg r.var = some (r.prov :: l)) ∧
        s.cstat r.prov ≠ "initialized" ∧ s.win r.var = some r.win := by
      unfold getRequiredVar at h1
      split at h1
      · cases h1
      · cases h1
      · rename_i p l hp
        split_ifs at h1 with hst
        · injection h1 with h1; subst h1; exact ⟨[], by simp, by simp⟩
        · split at h1
          · cases h1
          · rename_i w hw
            injection h1 with h1; subst h1
            refine ⟨[⟨c, p, v, t, w⟩], rfl, ?_⟩
            intro r hr
            simp only [List.mem_singleton] at hr
            subst hr
            exact ⟨rfl, rfl, by simp, ⟨l, hp⟩, fun h => hst (Or.inl h), hw⟩
    obtain ⟨r1, hs1, hr1⟩ := key
    subst hs1
    refine ⟨r1 ++ rs, by rw [hs']; simp, ?_⟩
    intro r hr
    rcases List.mem_append.1 hr with hr | hr
    · exact hr1 r hr
    · obtain ⟨a, b, d, e, f, g⟩ := hrs r hr
      exact ⟨a, b, List.mem_cons_of_mem _ d, e, f, g⟩

theorem getRequiredVars_isOk {cfg : Config K} {c : String} {t : K} {vs : List String} {s : St K}
    (h : ∀ v ∈ vs, ∃ p l, varProviders cfg v = some (p :: l) ∧
      (s.cstat p = "initialized" ∨ (s.win v).isSome)) :
    ∃ s', getRequiredVars cfg c t vs s = .ok s' := by
  induction vs generalizing s with
  | nil => exact ⟨s, rfl⟩
  | cons v vs ih =>
    rw [getRequiredVars]
    obtain ⟨p, l, hp, hor⟩ := h v (by simp)
    have h1 : ∃ s1, getRequiredVar cfg c t v s = .ok s1 ∧ s1.cstat = s.cstat ∧ s1.win = s.win := by
      unfold getRequiredVar
      rw [hp]
      simp only
      split_ifs with hst
      · exact ⟨s, rfl, rfl, rfl⟩
      · rcases hor with h' | h'
        · exact absurd (Or.inl h') hst
        · obtain ⟨w, hw⟩ := Option.isSome_iff_exists.1 h'
          rw [hw]; exact ⟨_, rfl, rfl, rfl⟩
    obtain ⟨s1, h1, hc, hw⟩ := h1
    rw [h1]
    apply ih
    intro u hu
    obtain ⟨p, l, hp, hor⟩ := h u (by simp [hu])
    exact ⟨p, l, hp, by rw [hc, hw]; exact hor⟩

/-- Facts recorded about one request made while the framework clock is `T`. -/
def ReqFact (cfg : Config K) (s : St K) (c : String) (r : Request K) : Prop :=
  r.user = c ∧ r.time = clk cfg s c ∧ r.prov ∈ cfg.provs ∧
    (cfg.decl r.prov).status = "Enabled" ∧
    r.win = ⟨clk cfg s r.prov - cdt cfg r.prov, clk cfg s r.prov⟩

theorem compStep_spec {cfg : Config K} (hg : Good cfg) (hck : checkUsersProviders cfg = true)
    {c : String} (hc : c ∈ cfg.provs) {s s' : St K} (hi : Inv cfg s)
    (h : compStep cfg c s = .ok s') :
    Inv cfg s' ∧ s'.time = s.time ∧
    (∀ d, d ≠ c → s'.ctime d = s.ctime d ∧ s'.nupd d = s.nupd d) ∧
    (if s.time > clk cfg s c ∧ (cfg.decl c).status = "Enabled" then
      s'.ctime c = s.ctime c + (cfg.decl c).dt ∧ s'.nupd c = s.nupd c + 1
     else s'.ctime c = s.ctime c ∧ s'.nupd c = s.nupd c) ∧
    ∃ rs, s'.log = s.log ++ rs ∧ ∀ r ∈ rs, s.time > clk cfg s c ∧ ReqFact cfg s c r := by
  have hst := hg.status c hc
  unfold compStep at h
  simp only at h
  by_cases ht : s.time > convert (s.ctime c) (cfg.decl c).units
  · rw [if_pos ht, bind_ok] at h
    obtain ⟨s1, h1, h2⟩ := h
    obtain ⟨rs, hs1, hrs⟩ := getRequiredVars_ok h1
    have hreq : ∀ r ∈ rs, s.time > clk cfg s c ∧ ReqFact cfg s c r := by
      intro r hr
      obtain ⟨a, b, hv, ⟨l, hl⟩, hni, hw⟩ := hrs r hr
      rw [varProviders_eq] at hl
      split_ifs at hl with hne
      simp only [Option.some.injEq] at hl
      have hm : r.prov ∈ provOcc cfg r.var := by rw [hl]; simp
      obtain ⟨hp, ho⟩ := mem_provOcc.1 hm
      have hen : (cfg.decl r.prov).status = "Enabled" := by
        rcases hg.status _ hp with h' | h'
        · exact h'
        · exact absurd (hi.dis _ hp h').1 hni
      have hvp : r.var ∈ varsProvided cfg r.prov := by
        simp only [varsProvided, List.mem_filter, decide_eq_true_eq]
        exact ⟨ho, mem_allInputs.2 ⟨hne.1, c, hc, hv⟩⟩
      have := (hi.en _ hp hen).2.2 _ hvp
      rw [this] at hw
      simp only [Option.some.injEq] at hw
      exact ⟨ht, a, b, hp, hen, hw.symm⟩
    by_cases hen : (cfg.decl c).status = "Enabled"
    · rw [if_pos hen] at h2
      have hnd := enabled_not_disabled hen
      unfold bmiUpdate at h2
      rw [hnd] at h2
      simp only [Bool.false_eq_true, if_false] at h2
      unfold tiUpdate2 at h2
      simp only [Function.update_self] at h2
      rw [if_neg (by decide +kernel), bind_ok] at h2
      obtain ⟨t2, ht2, h3⟩ := h2
      rw [bind_ok] at h3
      obtain ⟨w, hw, h4⟩ := h3
      have ht2 := tiConvert_ok ht2
      have hwin := shiftWins_ok hw (varsProvided_nodup hck hc)
      simp only [pure, Except.pure, Except.ok.injEq] at h4
      subst h4
      subst hs1
      simp only at hwin ht2 ⊢
      refine ⟨⟨?_, ?_⟩, trivial, ?_, ?_, ⟨rs, rfl, hreq⟩⟩
      · intro d hd hden
        obtain ⟨e1, e2, e3⟩ := hi.en d hd hden
        by_cases hdc : d = c
        · subst hdc
          refine ⟨by simp, ?_, ?_⟩
          · simp only [Function.update_self]; rw [e2]; push_cast; ring
          · intro v hv
            have := hwin v
            rw [if_pos hv, e3 v hv] at this
            show w v = _
            rw [this]
            simp only [clk, cdt, Function.update_self, convert_add, Option.map_some, ht2]
            simp
        · refine ⟨?_, ?_, ?_⟩
          · simp only [Function.update_of_ne hdc]; exact e1
          · simp only [Function.update_of_ne hdc]; exact e2
          · intro v hv
            have := hwin v
            rw [if_neg (fun hv' => hdc (varsProvided_unique hck hd hc hv hv')), e3 v hv] at this
            show w v = _
            rw [this]
            simp only [clk, Function.update_of_ne hdc]
      · intro d hd hdd
        have hdc : d ≠ c := by
          rintro rfl
          have := enabled_not_disabled hen
          simp [isDisabled, hdd] at this
        simp only [Function.update_of_ne hdc]
        exact hi.dis d hd hdd
      · intro d hd
        simp only [Function.update_of_ne hd]; exact ⟨trivial, trivial⟩
      · rw [if_pos ⟨ht, hen⟩]; simp
    · rw [if_neg hen] at h2
      have hd := hst.resolve_left hen
      unfold tiUpdate2 at h2
      have e := (hi.dis c hc hd).1
      subst hs1
      simp only [e, if_true, Except.ok.injEq] at h2
      subst h2
      refine ⟨⟨hi.en, hi.dis⟩, rfl, fun d hd => ⟨rfl, rfl⟩, ?_, ⟨rs, rfl, hreq⟩⟩
      rw [if_neg (fun h => hen h.2)]; exact ⟨rfl, rfl⟩
  · rw [if_neg ht] at h
    injection h with h; subst h
    refine ⟨hi, rfl, fun d hd => ⟨rfl, rfl⟩, ?_, ⟨[], by simp, by simp⟩⟩
    rw [if_neg (fun h => ht h.1)]; exact ⟨rfl, rfl⟩

/-- A configuration on which a run raises no exception. -/
structure Runs (cfg : Config K) : Prop where
  check : checkUsersProviders cfg = true
  no_blank : ∀ c ∈ cfg.provs, "" ∉ (cfg.decl c).inputs
  units : ∀ c ∈ cfg.provs, (cfg.decl c).units ≠ "hours" ∧ (cfg.decl c).units ≠ "h"

theorem win_some_of_inv {cfg : Config K} {s : St K} (hi : Inv cfg s) {c v : String}
    (hc : c ∈ cfg.provs) (hen : (cfg.decl c).status = "Enabled") (hv : v ∈ varsProvided cfg c) :
    (s.win v).isSome := by rw [(hi.en c hc hen).2.2 v hv]; rfl

theorem compStep_isOk {cfg : Config K} (hg : Good cfg) (hr : Runs cfg)
    {c : String} (hc : c ∈ cfg.provs) {s : St K} (hi : Inv cfg s) :
    ∃ s', compStep cfg c s = .ok s' := by
  unfold compStep
  simp only
  by_cases ht : s.time > convert (s.ctime c) (cfg.decl c).units
  · rw [if_pos ht]
    have hreq : ∃ s1, getRequiredVars cfg c (convert (s.ctime c) (cfg.decl c).units)
        (cfg.decl c).inputs s = .ok s1 := by
      apply getRequiredVars_isOk
      intro v hv
      have hne : v ≠ "" := fun h => hr.no_blank c hc (h ▸ hv)
      have hin : v ∈ allInputs cfg := mem_allInputs.2 ⟨hne, c, hc, hv⟩
      have h1 := (check_iff cfg).1 hr.check v hin
      obtain ⟨p, hp⟩ := List.length_eq_one_iff.1 h1
      have hm : p ∈ provOcc cfg v := by rw [hp]; simp
      obtain ⟨hpp, ho⟩ := mem_provOcc.1 hm
      refine ⟨p, [], ?_, ?_⟩
      · rw [varProviders_eq, hp]; simp [hne]
      · rcases hg.status p hpp with h' | h'
        · refine Or.inr (win_some_of_inv hi hpp h' ?_)
          simp only [varsProvided, List.mem_filter, decide_eq_true_eq]; exact ⟨ho, hin⟩
        · exact Or.inl (hi.dis p hpp h').1
    obtain ⟨s1, h1⟩ := hreq
    obtain ⟨rs, hs1, -⟩ := getRequiredVars_ok h1
    rw [h1]
    show ∃ s', tiUpdate2 cfg c _ = .ok s'
    rcases hg.status c hc with hen | hd
    · rw [if_pos hen]
      unfold bmiUpdate
      rw [enabled_not_disabled hen]
      simp only [Bool.false_eq_true, if_false]
      unfold tiUpdate2
      simp only [Function.update_self]
      rw [if_neg (by decide +kernel), tiConvert_isOk (hr.units c hc).1 (hr.units c hc).2]
      obtain ⟨w, hw⟩ := shiftWins_isOk (vs := varsProvided cfg c)
        (t := convert (s1.ctime c + (cfg.decl c).dt) (cfg.decl c).units) (w := s1.win)
        (fun v hv => by subst hs1; exact win_some_of_inv hi hc hen hv)
      exact ⟨_, bind_ok.2 ⟨_, rfl, bind_ok.2 ⟨w, hw, rfl⟩⟩⟩
    · have hne : (cfg.decl c).status ≠ "Enabled" := by
        intro h
        have := enabled_not_disabled h
        simp [isDisabled, hd] at this
      rw [if_neg hne]
      unfold tiUpdate2
      subst hs1
      rw [if_pos (hi.dis c hc hd).1]
      exact ⟨_, rfl⟩
  · rw [if_neg ht]; exact ⟨_, rfl⟩

/-! ### The loop over components, and framework steps -/

/-- Enabled components keep up: state at the top of a pass when the framework clock
is `T` (`T'` = framework time of the previous pass). -/
def Ahead (cfg : Config K) (s : St K) (T : K) (c : String) : Prop :=
  T ≤ clk cfg s c ∧ clk cfg s c ≤ T + cdt cfg c ∧ (0 < T → clk cfg s c < T + cdt cfg c)

/-- The property of a request proved by the invariant: made by `user` at its own clock,
with framework clock between `T'` (excl. nothing) and `T`; `P` may be any consequence. -/
theorem compLoop_spec {cfg : Config K} (hg : Good cfg) (hck : checkUsersProviders cfg = true)
    {fdt T' T : K} (hTT : T ≤ T' + fdt) (hle : T' ≤ T) (hlt' : 0 < T → T' < T)
    (hfd : ∀ c ∈ cfg.provs, (cfg.decl c).status = "Enabled" → fdt ≤ cdt cfg c)
    (P : Request K → Prop)
    (hP : ∀ (s : St K) (pre post : List String) (c : String) (r : Request K),
      cfg.provs = pre ++ c :: post → Inv cfg s → s.time = T →
      (∀ d ∈ cfg.provs, (cfg.decl d).status = "Enabled" →
        (d ∈ pre → Ahead cfg s T d) ∧ (d ∉ pre → Ahead cfg s T' d)) →
      T > clk cfg s c → ReqFact cfg s c r → P r)
    (rest pre : List String) (hsplit : cfg.provs = pre ++ rest) {s s' : St K}
    (hi : Inv cfg s) (hT : s.time = T)
    (hpre : ∀ d ∈ cfg.provs, (cfg.decl d).status = "Enabled" →
        (d ∈ pre → Ahead cfg s T d) ∧ (d ∉ pre → Ahead cfg s T' d))
    (hlog : ∀ r ∈ s.log, P r)
    (h : compLoop cfg rest s = .ok s') :
    Inv cfg s' ∧ s'.time = T ∧
      (∀ d ∈ cfg.provs, (cfg.decl d).status = "Enabled" → Ahead cfg s' T d) ∧
      (∀ r ∈ s'.log, P r) ∧
      (∀ d, s.nupd d ≤ s'.nupd d) ∧
      (∀ d, s'.nupd d ≤ s.nupd d + (if d ∈ rest then 1 else 0)) := by
  induction rest generalizing pre s with
  | nil =>
    simp only [compLoop, Except.ok.injEq] at h
    subst h
    simp only [List.append_nil] at hsplit
    refine ⟨hi, hT, ?_, hlog, fun d => le_refl _, fun d => by simp⟩
    intro d hd hen
    exact (hpre d hd hen).1 (hsplit ▸ hd)
  | cons c rest ih =>
    rw [compLoop, bind_ok] at h
    obtain ⟨s1, h1, h2⟩ := h
    have hc : c ∈ cfg.provs := by rw [hsplit]; simp
    have hnd := hg.nodup
    rw [hsplit] at hnd
    have hcpre : c ∉ pre := fun hm =>
      (List.nodup_append.1 hnd).2.2 c hm c (by simp) rfl
    have hcrest : c ∉ rest := (List.nodup_cons.1 (List.nodup_append.1 hnd).2.1).1
    obtain ⟨i1, t1, o1, u1, rs, l1, r1⟩ := compStep_spec hg hck hc hi h1
    have key : ∀ d ∈ cfg.provs, (cfg.decl d).status = "Enabled" →
        (d ∈ pre ++ [c] → Ahead cfg s1 T d) ∧ (d ∉ pre ++ [c] → Ahead cfg s1 T' d) := by
      intro d hd hen
      obtain ⟨a1, a2⟩ := hpre d hd hen
      by_cases hdc : d = c
      · subst hdc
        refine ⟨fun _ => ?_, fun hn => absurd (by simp) hn⟩
        have ha := a2 hcpre
        have hdt := hfd d hd hen
        have hpos := cdt_pos hg hd
        by_cases hlt : s.time > clk cfg s d
        · rw [if_pos ⟨hlt, hen⟩] at u1
          have hck' : clk cfg s1 d = clk cfg s d + cdt cfg d := by
            unfold clk cdt; rw [u1.1, convert_add]
          rw [hT] at hlt
          unfold Ahead at ha ⊢
          rw [hck']
          refine ⟨by linarith [ha.1], by linarith, fun _ => by linarith⟩
        · rw [if_neg (fun h => hlt h.1)] at u1
          have hck' : clk cfg s1 d = clk cfg s d := by unfold clk; rw [u1.1]
          rw [hT] at hlt
          unfold Ahead at ha ⊢
          rw [hck']
          refine ⟨not_lt.1 hlt, by linarith [ha.2.1], fun h0 => by linarith [ha.2.1, hlt' h0]⟩
      · have hck' : clk cfg s1 d = clk cfg s d := by unfold clk; rw [(o1 d hdc).1]
        simp only [List.mem_append, List.mem_singleton, hdc, or_false]
        unfold Ahead at a1 a2 ⊢
        rw [hck']; exact ⟨a1, a2⟩
    have hlog1 : ∀ r ∈ s1.log, P r := by
      intro r hr
      rw [l1] at hr
      rcases List.mem_append.1 hr with hr | hr
      · exact hlog r hr
      · obtain ⟨q1, q2⟩ := r1 r hr
        exact hP s pre rest c r hsplit hi hT hpre (hT ▸ q1) q2
    obtain ⟨f1, f2, f3, f4, f5, f6⟩ :=
      ih (pre ++ [c]) (by rw [hsplit]; simp) i1 (t1.trans hT) key hlog1 h2
    have hn1 : ∀ d, s.nupd d ≤ s1.nupd d ∧ s1.nupd d ≤ s.nupd d + (if d = c then 1 else 0) := by
      intro d
      by_cases hdc : d = c
      · subst hdc
        split_ifs at u1
        · rw [u1.2]; simp
        · rw [u1.2]; simp
      · rw [(o1 d hdc).2]; simp [hdc]
    refine ⟨f1, f2, f3, f4, fun d => (hn1 d).1.trans (f5 d), fun d => ?_⟩
    have e1 := hn1 d
    have e2 := f6 d
    by_cases hdc : d = c
    · subst hdc
      simp only [hcrest, if_false, if_true, List.mem_cons, true_or] at e1 e2 ⊢
      omega
    · simp only [hdc, if_false, List.mem_cons, false_or] at e1 e2 ⊢
      omega

theorem compLoop_isOk {cfg : Config K} (hg : Good cfg) (hr : Runs cfg) (rest : List String)
    (hsub : ∀ c ∈ rest, c ∈ cfg.provs) {s : St K} (hi : Inv cfg s) :
    ∃ s', compLoop cfg rest s = .ok s' ∧ Inv cfg s' := by
  induction rest generalizing s with
  | nil => exact ⟨s, rfl, hi⟩
  | cons c rest ih =>
    obtain ⟨s1, h1⟩ := compStep_isOk hg hr (hsub c (by simp)) hi
    have i1 := (compStep_spec hg hr.check (hsub c (by simp)) hi h1).1
    obtain ⟨s2, h2, i2⟩ := ih (fun d hd => hsub d (by simp [hd])) i1
    exact ⟨s2, by rw [compLoop, bind_ok]; exact ⟨s1, h1, h2⟩, i2⟩

/-! ### Initialisation -/

theorem tiInit_spec {cfg : Config K} (hg : Good cfg) (hck : checkUsersProviders cfg = true)
    (rest pre : List String) (hsplit : cfg.provs = pre ++ rest) {s s' : St K}
    (h0 : s.time = 0 ∧ s.log = [])
    (hen : ∀ c ∈ pre, (cfg.decl c).status = "Enabled" →
      s.cstat c = "updated" ∧ s.ctime c = (cfg.decl c).dt ∧ s.nupd c = 1 ∧
      ∀ v ∈ varsProvided cfg c, s.win v = some ⟨0, cdt cfg c⟩)
    (hdis : ∀ c, (c ∉ pre ∨ (cfg.decl c).status.toLower = "disabled") →
      s.cstat c = "initialized" ∧ s.ctime c = 0 ∧ s.nupd c = 0)
    (h : tiInit cfg rest s = .ok s') :
    s'.time = 0 ∧ s'.log = [] ∧
    (∀ c ∈ cfg.provs, (cfg.decl c).status = "Enabled" →
      s'.cstat c = "updated" ∧ s'.ctime c = (cfg.decl c).dt ∧ s'.nupd c = 1 ∧
      ∀ v ∈ varsProvided cfg c, s'.win v = some ⟨0, cdt cfg c⟩) ∧
    (∀ c, (c ∉ cfg.provs ∨ (cfg.decl c).status.toLower = "disabled") →
      s'.cstat c = "initialized" ∧ s'.ctime c = 0 ∧ s'.nupd c = 0) := by
  induction rest generalizing pre s with
  | nil =>
    simp only [tiInit, Except.ok.injEq] at h
    subst h
    simp only [List.append_nil] at hsplit
    rw [hsplit]
    exact ⟨h0.1, h0.2, hen, hdis⟩
  | cons c rest ih =>
    rw [tiInit, bind_ok] at h
    obtain ⟨s1, h1, h2⟩ := h
    have hc : c ∈ cfg.provs := by rw [hsplit]; simp
    have hnd := hg.nodup
    rw [hsplit] at hnd
    have hcpre : c ∉ pre := fun hm =>
      (List.nodup_append.1 hnd).2.2 c hm c (by simp) rfl
    have hsubpre : ∀ d ∈ pre, d ∈ cfg.provs := fun d hd => by rw [hsplit]; simp [hd]
    obtain ⟨z1, z2, z3⟩ := hdis c (Or.inl hcpre)
    unfold tiInitComp at h1
    rw [bind_ok] at h1
    obtain ⟨t1, ht1, h1⟩ := h1
    simp only [bind_ok] at h1
    obtain ⟨t2, ht2, w, hw, h1⟩ := h1
    simp only [pure, Except.pure, Except.ok.injEq] at h1
    have ht1 := tiConvert_ok ht1
    have ht2 := tiConvert_ok ht2
    rw [z2, convert_zero] at ht1
    subst ht1
    have hwin := shiftWins_ok hw (varsProvided_nodup hck hc)
    rcases hg.status c hc with hcen | hcd
    · have hnd' := enabled_not_disabled hcen
      simp only [bmiUpdate, hnd', Bool.false_eq_true, if_false] at h1 ht2 hwin
      simp only [Function.update_self, z2, zero_add] at ht2
      refine ih (pre ++ [c]) (by rw [hsplit]; simp) (by subst h1; exact h0) ?_ ?_ h2
      · intro d hd hden
        subst h1
        by_cases hdc : d = c
        · subst hdc
          refine ⟨by simp, by simp [z2], by simp [z3], ?_⟩
          intro v hv
          show w v = _
          rw [hwin v, if_pos hv, createWins_eq, if_pos hv, ht2]
          rfl
        · have hdp : d ∈ pre := by simpa [hdc] using hd
          obtain ⟨e1, e2, e3, e4⟩ := hen d hdp hden
          refine ⟨by simp [hdc, e1], by simp [hdc, e2], by simp [hdc, e3], ?_⟩
          intro v hv
          have hvn : v ∉ varsProvided cfg c := fun hv' =>
            hdc (varsProvided_unique hck (hsubpre d hdp) hc hv hv')
          show w v = _
          rw [hwin v, if_neg hvn, createWins_eq, if_neg hvn]
          exact e4 v hv
      · intro d hd
        subst h1
        have hdc : d ≠ c := by
          rintro rfl
          rcases hd with hd | hd
          · exact hd (by simp)
          · simp [isDisabled, hd] at hnd'
        have := hdis d (by
          rcases hd with hd | hd
          · exact Or.inl (fun h => hd (by simp [h]))
          · exact Or.inr hd)
        simpa [hdc] using this
    · have hnd' : isDisabled (cfg.decl c).status = true := by simp [isDisabled, hcd]
      simp only [bmiUpdate, hnd', if_true] at h1 hwin
      refine ih (pre ++ [c]) (by rw [hsplit]; simp) (by subst h1; exact h0) ?_ ?_ h2
      · intro d hd hden
        subst h1
        have hdc : d ≠ c := by
          rintro rfl
          have := enabled_not_disabled hden
          rw [hnd'] at this; cases this
        have hdp : d ∈ pre := by simpa [hdc] using hd
        obtain ⟨e1, e2, e3, e4⟩ := hen d hdp hden
        refine ⟨e1, e2, e3, ?_⟩
        intro v hv
        have hvn : v ∉ varsProvided cfg c := fun hv' =>
          hdc (varsProvided_unique hck (hsubpre d hdp) hc hv hv')
        show w v = _
        rw [hwin v, if_neg hvn, createWins_eq, if_neg hvn]
        exact e4 v hv
      · intro d hd
        subst h1
        by_cases hdc : d = c
        · subst hdc; exact ⟨z1, z2, z3⟩
        · exact hdis d (by
            rcases hd with hd | hd
            · exact Or.inl (fun h => hd (by simp [h]))
            · exact Or.inr hd)

theorem tiInit_isOk {cfg : Config K} (hu : ∀ c ∈ cfg.provs, (cfg.decl c).units ≠ "hours" ∧
    (cfg.decl c).units ≠ "h") (rest : List String) (hsub : ∀ c ∈ rest, c ∈ cfg.provs) (s : St K) :
    ∃ s', tiInit cfg rest s = .ok s' := by
  induction rest generalizing s with
  | nil => exact ⟨s, rfl⟩
  | cons c rest ih =>
    have hc := hsub c (by simp)
    have : ∃ s1, tiInitComp cfg c s = .ok s1 := by
      unfold tiInitComp
      simp only [bind_ok, tiConvert_isOk (hu c hc).1 (hu c hc).2, Except.ok.injEq,
        exists_eq_left']
      set s1 := bmiUpdate cfg c (St.mk s.time s.ctime s.cstat s.nupd
        (createWins (varsProvided cfg c) (convert (s.ctime c) (cfg.decl c).units) s.win) s.log)
        with hs1
      obtain ⟨w, hw⟩ := shiftWins_isOk (vs := varsProvided cfg c)
        (t := convert (s1.ctime c) (cfg.decl c).units) (w := s1.win)
        (fun v hv => by
          have : s1.win v =
            createWins (varsProvided cfg c) (convert (s.ctime c) (cfg.decl c).units) s.win v := by
            rw [hs1]; unfold bmiUpdate; split_ifs <;> rfl
          rw [this, createWins_eq, if_pos hv]; rfl)
      exact ⟨_, w, hw, rfl⟩
    obtain ⟨s1, h1⟩ := this
    obtain ⟨s2, h2⟩ := ih (fun d hd => hsub d (by simp [hd])) s1
    exact ⟨s2, by rw [tiInit, bind_ok]; exact ⟨s1, h1, h2⟩⟩

/-- State of a run at the top of pass `n` (i.e. after `n` passes). -/
structure RunInv (cfg : Config K) (fdt : K) (n : ℕ) (s : St K) : Prop where
  inv : Inv cfg s
  time : s.time = n * fdt
  ahead : ∀ d ∈ cfg.provs, (cfg.decl d).status = "Enabled" →
    Ahead cfg s (((n - 1 : ℕ) : K) * fdt) d

theorem tiInit_runInv {cfg : Config K} (hg : Good cfg) (hck : checkUsersProviders cfg = true)
    {s : St K} (fdt : K) (h : tiInit cfg cfg.provs initSt = .ok s) :
    RunInv cfg fdt 0 s ∧ s.log = [] ∧
      (∀ c ∈ cfg.provs, (cfg.decl c).status = "Enabled" → s.nupd c = 1) := by
  obtain ⟨h1, h2, h3, h4⟩ := tiInit_spec hg hck cfg.provs [] rfl (s := initSt)
    ⟨rfl, rfl⟩ (by simp) (fun c _ => ⟨rfl, rfl, rfl⟩) h
  refine ⟨⟨⟨?_, ?_⟩, by simpa using h1, ?_⟩, h2, fun c hc he => (h3 c hc he).2.2.1⟩
  · intro c hc hen
    obtain ⟨e1, e2, e3, e4⟩ := h3 c hc hen
    refine ⟨e1, by rw [e2, e3]; simp, ?_⟩
    intro v hv
    rw [e4 v hv]
    have : clk cfg s c = cdt cfg c := by unfold clk cdt; rw [e2]
    rw [this]; simp
  · intro c hc hd
    exact h4 c (Or.inr hd)
  · intro c hc hen
    obtain ⟨e1, e2, e3, e4⟩ := h3 c hc hen
    have : clk cfg s c = cdt cfg c := by unfold clk cdt; rw [e2]
    have hp := cdt_pos hg hc
    unfold Ahead
    rw [this]
    refine ⟨by simp [hp.le], by simp, fun h => absurd h (by simp)⟩

theorem dtEntry_enabled {cfg : Config K} {c : String} (h : (cfg.decl c).status = "Enabled") :
    dtEntry cfg c = cdt cfg c := by
  unfold dtEntry; rw [enabled_not_disabled h]; rfl

theorem fdt_pos {cfg : Config K} (hg : Good cfg) {fdt : K} (h : frameworkDt cfg = .ok fdt) :
    0 < fdt := by
  obtain ⟨c, hc, rfl⟩ := frameworkDt_mem h
  unfold dtEntry
  split_ifs
  · exact convert_pos (by norm_num) _
  · exact cdt_pos hg hc

theorem frameworkStep_spec {cfg : Config K} (hg : Good cfg) (hck : checkUsersProviders cfg = true)
    {fdt : K} (hf : frameworkDt cfg = .ok fdt) {n : ℕ} {s s' : St K}
    (hr : RunInv cfg fdt n s) (P : Request K → Prop)
    (hP : ∀ (s : St K) (pre post : List String) (c : String) (r : Request K),
      cfg.provs = pre ++ c :: post → Inv cfg s → s.time = n * fdt →
      (∀ d ∈ cfg.provs, (cfg.decl d).status = "Enabled" →
        (d ∈ pre → Ahead cfg s (n * fdt) d) ∧ (d ∉ pre → Ahead cfg s (((n - 1 : ℕ) : K) * fdt) d)) →
      (n * fdt : K) > clk cfg s c → ReqFact cfg s c r → P r)
    (hlog : ∀ r ∈ s.log, P r)
    (h : frameworkStep cfg fdt s = .ok s') :
    RunInv cfg fdt (n + 1) s' ∧ (∀ r ∈ s'.log, P r) ∧
      (∀ d, s.nupd d ≤ s'.nupd d ∧ s'.nupd d ≤ s.nupd d + 1) := by
  unfold frameworkStep at h
  rw [bind_ok] at h
  obtain ⟨s1, h1, h2⟩ := h
  simp only [pure, Except.pure, Except.ok.injEq] at h2
  have hfp := fdt_pos hg hf
  have hTT : (n * fdt : K) ≤ ((n - 1 : ℕ) : K) * fdt + fdt := by
    rcases Nat.eq_zero_or_pos n with rfl | hn
    · simp [hfp.le]
    · obtain ⟨m, rfl⟩ := Nat.exists_eq_succ_of_ne_zero hn.ne'
      simp [add_mul]
  have hle : ((n - 1 : ℕ) : K) * fdt ≤ n * fdt :=
    mul_le_mul_of_nonneg_right (by exact_mod_cast Nat.sub_le n 1) hfp.le
  have hlt' : (0 : K) < n * fdt → ((n - 1 : ℕ) : K) * fdt < n * fdt := by
    intro h0
    have hn : n ≠ 0 := by rintro rfl; simp at h0
    exact mul_lt_mul_of_pos_right (by exact_mod_cast Nat.sub_lt (Nat.pos_of_ne_zero hn) one_pos) hfp
  obtain ⟨f1, f2, f3, f4, f5, f6⟩ := compLoop_spec hg hck hTT hle hlt'
    (fun c hc he => by rw [← dtEntry_enabled he]; exact frameworkDt_le hf hc)
    P hP cfg.provs [] rfl hr.inv hr.time
    (fun d hd he => ⟨fun hm => absurd hm (by simp), fun _ => hr.ahead d hd he⟩) hlog h1
  subst h2
  refine ⟨⟨⟨f1.en, f1.dis⟩, ?_, ?_⟩, f4, ?_⟩
  · show s1.time + fdt = _
    rw [f2]; push_cast; ring
  · intro d hd he
    have := f3 d hd he
    simp only [Nat.add_sub_cancel]
    exact this
  · intro d
    refine ⟨f5 d, (f6 d).trans ?_⟩
    split_ifs <;> simp

/-- Everything about `steps` in one induction. -/
theorem steps_spec {cfg : Config K} (hg : Good cfg) (hck : checkUsersProviders cfg = true)
    {fdt : K} (hf : frameworkDt cfg = .ok fdt) {s0 : St K} (h0 : RunInv cfg fdt 0 s0)
    (hl0 : s0.log = []) (P : Request K → Prop)
    (hP : ∀ (n : ℕ) (s : St K) (pre post : List String) (c : String) (r : Request K),
      cfg.provs = pre ++ c :: post → Inv cfg s → s.time = n * fdt →
      (∀ d ∈ cfg.provs, (cfg.decl d).status = "Enabled" →
        (d ∈ pre → Ahead cfg s (n * fdt) d) ∧ (d ∉ pre → Ahead cfg s (((n - 1 : ℕ) : K) * fdt) d)) →
      (n * fdt : K) > clk cfg s c → ReqFact cfg s c r → P r)
    (n : ℕ) {s : St K} (h : steps cfg fdt n s0 = .ok s) :
    RunInv cfg fdt n s ∧ ∀ r ∈ s.log, P r := by
  induction n generalizing s with
  | zero =>
    simp only [steps, Except.ok.injEq] at h
    subst h; exact ⟨h0, by rw [hl0]; simp⟩
  | succ n ih =>
    rw [steps, bind_ok] at h
    obtain ⟨s1, h1, h2⟩ := h
    obtain ⟨i1, l1⟩ := ih h1
    obtain ⟨a, b, -⟩ := frameworkStep_spec hg hck hf i1 P (hP n) l1 h2
    exact ⟨a, b⟩

theorem steps_isOk {cfg : Config K} (hg : Good cfg) (hr : Runs cfg)
    {fdt : K} (hf : frameworkDt cfg = .ok fdt) {s0 : St K} (h0 : RunInv cfg fdt 0 s0)
    (hl0 : s0.log = []) (n : ℕ) : ∃ s, steps cfg fdt n s0 = .ok s := by
  induction n with
  | zero => exact ⟨s0, rfl⟩
  | succ n ih =>
    obtain ⟨s, hs⟩ := ih
    have hi := (steps_spec hg hr.check hf h0 hl0 (fun _ => True)
      (fun _ _ _ _ _ _ _ _ _ _ _ _ => trivial) n hs).1
    obtain ⟨s1, h1, -⟩ := compLoop_isOk hg hr cfg.provs (fun c hc => hc) hi.inv
    exact ⟨_, by rw [steps, bind_ok]; exact ⟨s, hs, by
      unfold frameworkStep; rw [bind_ok]; exact ⟨s1, h1, rfl⟩⟩⟩

theorem runModel_some {cfg : Config K} {n : ℕ} {s : St K}
    (h : runModel cfg n = .ok (some s)) :
    checkUsersProviders cfg = true ∧ ∃ fdt s0, frameworkDt cfg = .ok fdt ∧
      tiInit cfg cfg.provs initSt = .ok s0 ∧ steps cfg fdt n s0 = .ok s := by
  unfold runModel at h
  split_ifs at h with hck
  · simp only [bind_ok, pure, Except.pure, Except.ok.injEq, Option.some.injEq] at h
    obtain ⟨fdt, h1, s0, h2, s', h3, rfl⟩ := h
    exact ⟨hck, fdt, s0, h1, h2, h3⟩
  · cases h

end Emeli
