import Verif.EmeliRun
import Verif.EmeliSpec

/-! # C14, C15, C16: coupled runs under the EMELI framework -/

set_option autoImplicit false
set_option linter.unusedSectionVars false

namespace Emeli

open EmeliSpec

variable {K : Type*} [Field K] [LinearOrder K] [IsStrictOrderedRing K]

theorem secs_eq (u : String) : secs K u = secondsPer K u := by
  unfold secs secondsPer
  simp only [List.mem_cons, List.not_mem_nil, or_false]
  split_ifs <;> norm_num

theorem clk_eq (cfg : Config K) (s : St K) (c : String) : clk cfg s c = clockSec cfg s c := by
  unfold clk clockSec; rw [convert_eq, secs_eq]

theorem cdt_eq (cfg : Config K) (c : String) : cdt cfg c = stepSec cfg c := by
  unfold cdt stepSec; rw [convert_eq, secs_eq]

theorem good_of {cfg : Config K} (h : WellFormed cfg) : Good cfg :=
  ⟨h.distinct, h.status, h.positive⟩

/-! ## C16 -/

/-- The framework's check succeeds exactly when every (nonblank) input of every component is
listed exactly once among all outputs. -/
theorem C16_check_iff_listed_once (cfg : Config K) :
    checkUsersProviders cfg = true ↔
      ∀ u ∈ cfg.provs, ∀ v ∈ (cfg.decl u).inputs, v ≠ "" → ListedOnce cfg v := by
  rw [check_iff]
  constructor
  · intro h u hu v hv hne
    rw [ListedOnce, ← length_provOcc]
    exact h v (mem_allInputs.2 ⟨hne, u, hu, hv⟩)
  · intro h v hv
    obtain ⟨hne, u, hu, hv⟩ := mem_allInputs.1 hv
    rw [length_provOcc]; exact h u hu v hv hne

/-- After a successful check each input of each component is an output of exactly one
component, and the recorded provider list holds that component only. -/
theorem C16_unique_provider (cfg : Config K) (h : checkUsersProviders cfg = true)
    {u v : String} (hu : u ∈ cfg.provs) (hv : v ∈ (cfg.decl u).inputs) (hne : v ≠ "") :
    ∃ p, varProviders cfg v = some [p] ∧ p ∈ cfg.provs ∧ v ∈ (cfg.decl p).outputs ∧
      ∀ q ∈ cfg.provs, v ∈ (cfg.decl q).outputs → q = p := by
  have h1 := (check_iff cfg).1 h v (mem_allInputs.2 ⟨hne, u, hu, hv⟩)
  obtain ⟨p, hp⟩ := List.length_eq_one_iff.1 h1
  have hm : p ∈ provOcc cfg v := by rw [hp]; simp
  obtain ⟨a, b⟩ := mem_provOcc.1 hm
  refine ⟨p, ?_, a, b, ?_⟩
  · rw [varProviders_eq, hp]; simp [hne]
  · intro q hq hqo
    have : q ∈ provOcc cfg v := mem_provOcc.2 ⟨hq, hqo⟩
    rw [hp] at this; simpa using this

/-- A failed check stops the run before any component is updated. -/
theorem C16_failed_check_stops_run (cfg : Config K) (n : ℕ)
    (h : ∃ u ∈ cfg.provs, ∃ v ∈ (cfg.decl u).inputs, v ≠ "" ∧ ¬ ListedOnce cfg v) :
    runModel cfg n = .ok none := by
  obtain ⟨u, hu, v, hv, hne, hl⟩ := h
  have : ¬ checkUsersProviders cfg = true := fun hc =>
    hl ((C16_check_iff_listed_once cfg).1 hc u hu v hv hne)
  unfold runModel; rw [if_neg this]

/-! ## C14 -/

theorem runInv_of_run {cfg : Config K} (hg : WellFormed cfg) {n : ℕ} {s : St K}
    (h : runModel cfg n = .ok (some s)) :
    ∃ fdt, frameworkDt cfg = .ok fdt ∧ RunInv cfg fdt n s := by
  obtain ⟨hck, fdt, s0, h1, h2, h3⟩ := runModel_some h
  obtain ⟨i0, l0, -⟩ := tiInit_runInv (good_of hg) hck fdt h2
  exact ⟨fdt, h1, (steps_spec (good_of hg) hck h1 i0 l0 (fun _ => True)
    (fun _ _ _ _ _ _ _ _ _ _ _ _ => trivial) n h3).1⟩

theorem run_succ {cfg : Config K} (hg : WellFormed cfg) {n : ℕ} {s s' : St K}
    (h : runModel cfg n = .ok (some s)) (h' : runModel cfg (n + 1) = .ok (some s')) :
    ∀ d, s.nupd d ≤ s'.nupd d ∧ s'.nupd d ≤ s.nupd d + 1 := by
  obtain ⟨hck, fdt, s0, h1, h2, h3⟩ := runModel_some h
  obtain ⟨-, fdt', s0', h1', h2', h3'⟩ := runModel_some h'
  rw [h1] at h1'; injection h1' with e; subst e
  rw [h2] at h2'; injection h2' with e; subst e
  obtain ⟨i0, l0, -⟩ := tiInit_runInv (good_of hg) hck fdt h2
  have hi := (steps_spec (good_of hg) hck h1 i0 l0 (fun _ => True)
    (fun _ _ _ _ _ _ _ _ _ _ _ _ => trivial) n h3).1
  rw [steps, bind_ok] at h3'
  obtain ⟨s1, e1, e2⟩ := h3'
  rw [h3] at e1; injection e1 with e; subst e
  exact (frameworkStep_spec (good_of hg) hck h1 hi (fun _ => True)
    (fun _ _ _ _ _ _ _ _ _ _ _ => trivial) (fun _ _ => trivial) e2).2.2

/-- The framework clock after `n` passes is `n` times the smallest time step (a disabled
component counts as one with a step of 1000000 s). -/
theorem C14_framework_clock {cfg : Config K} (hg : WellFormed cfg) {n : ℕ} {s : St K}
    (h : runModel cfg n = .ok (some s)) :
    ∃ fdt, s.time = n * fdt ∧ 0 < fdt ∧
      (∀ c ∈ cfg.provs, (cfg.decl c).status = "Enabled" → fdt ≤ stepSec cfg c) ∧
      ((∃ c ∈ cfg.provs, (cfg.decl c).status = "Enabled" ∧ fdt = stepSec cfg c) ∨
        (fdt = 1000000 ∧ ∃ c ∈ cfg.provs, (cfg.decl c).status.toLower = "disabled")) := by
  obtain ⟨fdt, hf, hr⟩ := runInv_of_run hg h
  refine ⟨fdt, hr.time, fdt_pos (good_of hg) hf, ?_, ?_⟩
  · intro c hc he
    rw [← cdt_eq, ← dtEntry_enabled he]; exact frameworkDt_le hf hc
  · obtain ⟨c, hc, rfl⟩ := frameworkDt_mem hf
    rcases hg.status c hc with he | hd
    · exact Or.inl ⟨c, hc, he, by rw [dtEntry_enabled he, cdt_eq]⟩
    · refine Or.inr ⟨?_, c, hc, hd⟩
      unfold dtEntry
      rw [if_pos (by simp [isDisabled, hd]), convert_eq, secs_eq]
      simp [secondsPer]

/-- **C14.**  In every pass of every run each enabled component ends at or beyond the framework
time at which the pass began, at most one own step ahead of it (strictly less once the framework
clock has moved), having been updated at most once in the pass. -/
theorem C14_clocks_keep_up {cfg : Config K} (hg : WellFormed cfg) {n : ℕ} {s s' : St K}
    (h : runModel cfg n = .ok (some s)) (h' : runModel cfg (n + 1) = .ok (some s'))
    {c : String} (hc : c ∈ cfg.provs) (he : (cfg.decl c).status = "Enabled") :
    s.time ≤ clockSec cfg s' c ∧ clockSec cfg s' c ≤ s.time + stepSec cfg c ∧
    (0 < s.time → clockSec cfg s' c < s.time + stepSec cfg c) ∧
    s'.nupd c ≤ s.nupd c + 1 ∧ s'.ctime c = s'.nupd c * (cfg.decl c).dt := by
  obtain ⟨fdt, hf, hr⟩ := runInv_of_run hg h
  obtain ⟨fdt', hf', hr'⟩ := runInv_of_run hg h'
  rw [hf] at hf'; injection hf' with e; subst e
  have ha := hr'.ahead c hc he
  simp only [Nat.add_sub_cancel, ← hr.time] at ha
  unfold Ahead at ha
  rw [clk_eq, cdt_eq] at ha
  exact ⟨ha.1, ha.2.1, ha.2.2, (run_succ hg h h' c).2, (hr'.inv.en c hc he).2.1⟩

/-- A disabled component is never updated. -/
theorem C14_disabled_never_updated {cfg : Config K} (hg : WellFormed cfg) {n : ℕ} {s : St K}
    (h : runModel cfg n = .ok (some s)) {c : String} (hc : c ∈ cfg.provs)
    (hd : (cfg.decl c).status.toLower = "disabled") : s.nupd c = 0 ∧ s.ctime c = 0 := by
  obtain ⟨fdt, hf, hr⟩ := runInv_of_run hg h
  exact ⟨(hr.inv.dis c hc hd).2.2, (hr.inv.dis c hc hd).2.1⟩

theorem nupd_pos {cfg : Config K} (hg : WellFormed cfg) (n : ℕ) {s : St K}
    (h : runModel cfg n = .ok (some s)) {c : String} (hc : c ∈ cfg.provs)
    (he : (cfg.decl c).status = "Enabled") : 1 ≤ s.nupd c := by
  obtain ⟨hck, fdt, s0, h1, h2, h3⟩ := runModel_some h
  obtain ⟨i0, l0, u0⟩ := tiInit_runInv (good_of hg) hck fdt h2
  clear h
  induction n generalizing s with
  | zero => simp only [steps, Except.ok.injEq] at h3; subst h3; exact (u0 c hc he).ge
  | succ n ih =>
    rw [steps, bind_ok] at h3
    obtain ⟨s1, e1, e2⟩ := h3
    have hi := (steps_spec (good_of hg) hck h1 i0 l0 (fun _ => True)
      (fun _ _ _ _ _ _ _ _ _ _ _ _ => trivial) n e1).1
    have := (frameworkStep_spec (good_of hg) hck h1 hi (fun _ => True)
      (fun _ _ _ _ _ _ _ _ _ _ _ => trivial) (fun _ _ => trivial) e2).2.2 c
    exact (ih e1).trans this.1

/-- The exact schedule: after the pass begun at framework time `s.time`, an enabled component has
been updated the smallest positive number of times that brings its clock to `s.time`. -/
theorem C14_exact_update_count {cfg : Config K} (hg : WellFormed cfg) {n : ℕ} {s s' : St K}
    (h : runModel cfg n = .ok (some s)) (h' : runModel cfg (n + 1) = .ok (some s'))
    {c : String} (hc : c ∈ cfg.provs) (he : (cfg.decl c).status = "Enabled") :
    IsLeast {k : ℕ | 1 ≤ k ∧ s.time ≤ k * stepSec cfg c} (s'.nupd c) := by
  obtain ⟨a1, a2, a3, -, a5⟩ := C14_clocks_keep_up hg h h' hc he
  have hpos : 0 < stepSec cfg c := by rw [← cdt_eq]; exact cdt_pos (good_of hg) hc
  have hclk : clockSec cfg s' c = s'.nupd c * stepSec cfg c := by
    unfold clockSec stepSec; rw [a5]; ring
  rw [hclk] at a1 a2 a3
  refine ⟨⟨nupd_pos hg _ h' hc he, a1⟩, ?_⟩
  rintro j ⟨hj1, hj⟩
  by_contra hlt
  push Not at hlt
  have hlt' : (j : K) + 1 ≤ s'.nupd c := by exact_mod_cast hlt
  have hmul : ((j : K) + 1) * stepSec cfg c ≤ s'.nupd c * stepSec cfg c :=
    mul_le_mul_of_nonneg_right hlt' hpos.le
  have hexp : ((j : K) + 1) * stepSec cfg c = j * stepSec cfg c + stepSec cfg c := by ring
  obtain ⟨fdt, ht, hfp, -⟩ := C14_framework_clock hg h
  have h0 : 0 ≤ s.time := by rw [ht]; positivity
  rcases h0.lt_or_eq with h0 | h0
  · have := a3 h0; linarith
  · have hj1' : (1 : K) ≤ j := by exact_mod_cast hj1
    have : stepSec cfg c ≤ j * stepSec cfg c := le_mul_of_one_le_left hpos.le hj1'
    linarith

/-- With a successful check, no blank input names and no component measuring time in hours,
a run raises no exception, however long it is. -/
theorem C14_run_never_raises {cfg : Config K} (hg : WellFormed cfg) (hne : cfg.provs ≠ [])
    (hp : ∀ u ∈ cfg.provs, ∀ v ∈ (cfg.decl u).inputs, v ≠ "" ∧ ListedOnce cfg v)
    (hu : ∀ c ∈ cfg.provs, (cfg.decl c).units ∉ ["hours", "h"]) (n : ℕ) :
    ∃ s, runModel cfg n = .ok (some s) := by
  have hck := (C16_check_iff_listed_once cfg).2 (fun u hu v hv _ => (hp u hu v hv).2)
  have hu' : ∀ c ∈ cfg.provs, (cfg.decl c).units ≠ "hours" ∧ (cfg.decl c).units ≠ "h" := by
    intro c hc
    have := hu c hc
    simpa using this
  have hruns : Runs cfg := ⟨hck, fun c hc hb => (hp c hc _ hb).1 rfl, hu'⟩
  have hf : ∃ fdt, frameworkDt cfg = .ok fdt := by
    unfold frameworkDt
    cases hcs : cfg.provs with
    | nil => exact absurd hcs hne
    | cons a l => exact ⟨_, rfl⟩
  obtain ⟨fdt, hf⟩ := hf
  obtain ⟨s0, h0⟩ := tiInit_isOk hu' cfg.provs (fun _ h => h) initSt
  obtain ⟨i0, l0, -⟩ := tiInit_runInv (good_of hg) hck fdt h0
  obtain ⟨s, hs⟩ := steps_isOk (good_of hg) hruns hf i0 l0 n
  refine ⟨s, ?_⟩
  unfold runModel
  rw [if_pos hck]
  simp only [bind_ok, pure, Except.pure, Except.ok.injEq, Option.some.injEq]
  exact ⟨fdt, hf, s0, h0, s, hs, rfl⟩

/-- Finding: with linear interpolation, a component that reports its time in hours makes every
run raise (a misspelled constant). -/
theorem C14_hours_raises {cfg : Config K} (hck : checkUsersProviders cfg = true)
    {c : String} (hc : c ∈ cfg.provs) (hu : (cfg.decl c).units ∈ ["hours", "h"]) (n : ℕ) :
    ∃ e, runModel cfg n = .error e := by
  have h1 : ∀ (l : List String) (s s' : St K), c ∈ l → tiInit cfg l s ≠ .ok s' := by
    intro l
    induction l with
    | nil => intro s s' hm; cases hm
    | cons a l ih =>
      intro s s' hm h
      rw [tiInit, bind_ok] at h
      obtain ⟨s1, e1, e2⟩ := h
      by_cases hac : a = c
      · subst hac
        unfold tiInitComp at e1
        rw [bind_ok] at e1
        obtain ⟨t, ht, -⟩ := e1
        simp only [List.mem_cons, List.not_mem_nil, or_false] at hu
        unfold tiConvert at ht
        rcases hu with hu | hu <;> rw [hu] at ht <;> simp at ht
      · exact ih s1 s' (by
          rcases List.mem_cons.1 hm with rfl | h
          · exact absurd rfl hac
          · exact h) e2
  cases hr : runModel cfg n with
  | error e => exact ⟨e, rfl⟩
  | ok x =>
    exfalso
    unfold runModel at hr
    rw [if_pos hck] at hr
    simp only [bind_ok] at hr
    obtain ⟨_, _, s0, h0, -⟩ := hr
    exact h1 _ _ _ hc h0

/-! ## C15 -/

/-- All that holds in general of the data requests of enabled users: a request misses the
provider's window by at most one framework step; it is never later than the window when the
provider comes before the user in the provider file, and never earlier otherwise. -/
theorem C15_requests_near_window_partial {cfg : Config K} (hg : WellFormed cfg) {n : ℕ} {s : St K}
    (h : runModel cfg n = .ok (some s)) {r : Request K} (hr : r ∈ s.log)
    (hu : (cfg.decl r.user).status = "Enabled") :
    ∃ fdt, frameworkDt cfg = .ok fdt ∧
      r.win.t1 - fdt ≤ r.time ∧ r.time < r.win.t2 + fdt ∧
      (Before cfg r.prov r.user → r.time ≤ r.win.t2) ∧
      (¬ Before cfg r.prov r.user → r.win.t1 ≤ r.time) := by
  obtain ⟨hck, fdt, s0, h1, h2, h3⟩ := runModel_some h
  obtain ⟨i0, l0, -⟩ := tiInit_runInv (good_of hg) hck fdt h2
  refine ⟨fdt, h1, ?_⟩
  refine (steps_spec (good_of hg) hck h1 i0 l0 (fun r => (cfg.decl r.user).status = "Enabled" →
      r.win.t1 - fdt ≤ r.time ∧ r.time < r.win.t2 + fdt ∧
      (Before cfg r.prov r.user → r.time ≤ r.win.t2) ∧
      (¬ Before cfg r.prov r.user → r.win.t1 ≤ r.time)) ?_ n h3).2 r hr hu
  intro m s pre post c r hsplit hi ht hah hgt ⟨q1, q2, q3, q4, q5⟩ hen
  have hfp := fdt_pos (good_of hg) h1
  have hc : c ∈ cfg.provs := by rw [hsplit]; simp
  have hnd := hg.distinct
  have hnd2 := hnd
  rw [hsplit] at hnd2
  have hcpre : c ∉ pre := fun hm => (List.nodup_append.1 hnd2).2.2 c hm c (by simp) rfl
  have hbef : Before cfg r.prov r.user ↔ r.prov ∈ pre := by
    constructor
    · rintro ⟨pre', post', e1, e2⟩
      rw [q1, hsplit] at e1
      have : pre = pre' := by
        have hsplit' := e1
        clear hah
        have hpre' : c ∉ pre' := by
          intro hm
          rw [hsplit, e1] at hnd
          exact (List.nodup_append.1 hnd).2.2 c hm c (by simp) rfl
        rw [List.append_eq_append_iff] at hsplit'
        rcases hsplit' with ⟨a, ha1, ha2⟩ | ⟨a, ha1, ha2⟩
        · cases a with
          | nil => simpa using ha1.symm
          | cons x xs =>
            simp only [List.cons_append, List.cons.injEq] at ha2
            exact absurd (by rw [ha1, ha2.1]; simp) hpre'
        · cases a with
          | nil => simpa using ha1
          | cons x xs =>
            simp only [List.cons_append, List.cons.injEq] at ha2
            exact absurd (by rw [ha1, ha2.1]; simp) hcpre
      rw [this]; exact e2
    · intro hm; exact ⟨pre, post, by rw [q1]; exact hsplit, hm⟩
  have hT : (m : K) * fdt ≤ ((m - 1 : ℕ) : K) * fdt + fdt := by
    rcases Nat.eq_zero_or_pos m with rfl | hm
    · simp [hfp.le]
    · obtain ⟨k, rfl⟩ := Nat.exists_eq_succ_of_ne_zero hm.ne'
      simp [add_mul]
  have hcu := (hah c hc (q1 ▸ hen)).2 hcpre
  have hp := hah r.prov q3 q4
  rw [hbef, q5, q2]
  simp only
  unfold Ahead at hcu hp
  by_cases hm : r.prov ∈ pre
  · have := hp.1 hm
    exact ⟨by linarith [hcu.1, this.2.1], by linarith [this.1], fun _ => by linarith [this.1],
      fun h => absurd hm h⟩
  · have := hp.2 hm
    exact ⟨by linarith [hcu.1, this.2.1], by linarith [this.1], fun h => absurd h hm,
      fun _ => by linarith [hcu.1, this.2.1]⟩

/-- If every enabled component's step is a whole number of framework steps, every request of an
enabled user falls in the provider's window. -/
theorem C15_requests_in_window_partial {cfg : Config K} (hg : WellFormed cfg) {n : ℕ} {s : St K}
    (h : runModel cfg n = .ok (some s)) {fdt : K} (hf : frameworkDt cfg = .ok fdt)
    (hm : ∀ c ∈ cfg.provs, (cfg.decl c).status = "Enabled" → ∃ k : ℕ, stepSec cfg c = k * fdt)
    {r : Request K} (hr : r ∈ s.log) (hu : (cfg.decl r.user).status = "Enabled") :
    r.win.t1 ≤ r.time ∧ r.time ≤ r.win.t2 := by
  obtain ⟨hck, fdt', s0, h1, h2, h3⟩ := runModel_some h
  rw [hf] at h1; injection h1 with e; subst e
  obtain ⟨i0, l0, -⟩ := tiInit_runInv (good_of hg) hck fdt h2
  refine (steps_spec (good_of hg) hck hf i0 l0 (fun r => (cfg.decl r.user).status = "Enabled" →
      r.win.t1 ≤ r.time ∧ r.time ≤ r.win.t2) ?_ n h3).2 r hr hu
  intro m s pre post c r hsplit hi ht hah hgt ⟨q1, q2, q3, q4, q5⟩ hen
  have hfp := fdt_pos (good_of hg) hf
  have hc : c ∈ cfg.provs := by rw [hsplit]; simp
  have hnd := hg.distinct
  rw [hsplit] at hnd
  have hcpre : c ∉ pre := fun hm => (List.nodup_append.1 hnd).2.2 c hm c (by simp) rfl
  have hcen : (cfg.decl c).status = "Enabled" := q1 ▸ hen
  have hcu := (hah c hc hcen).2 hcpre
  -- clocks are whole multiples of the framework step
  have hmul : ∀ d ∈ cfg.provs, (cfg.decl d).status = "Enabled" →
      ∃ j k : ℕ, clk cfg s d = j * fdt ∧ cdt cfg d = k * fdt := by
    intro d hd hden
    obtain ⟨k, hk⟩ := hm d hd hden
    refine ⟨s.nupd d * k, k, ?_, by rw [cdt_eq, hk]⟩
    rw [clk_eq]
    unfold clockSec
    rw [(hi.en d hd hden).2.1]
    unfold stepSec at hk
    push_cast
    rw [mul_assoc, hk]; ring
  obtain ⟨ju, ku, eju, -⟩ := hmul c hc hcen
  obtain ⟨jp, kp, ejp, ekp⟩ := hmul r.prov q3 q4
  have hlt : ∀ a b : ℕ, (a : K) * fdt < b * fdt → a + 1 ≤ b := by
    intro a b hab
    have := lt_of_mul_lt_mul_right hab hfp.le
    exact_mod_cast this
  have hle : ∀ a b : ℕ, (a : K) * fdt ≤ b * fdt → a ≤ b := by
    intro a b hab
    have := le_of_mul_le_mul_right hab hfp
    exact_mod_cast this
  have hle' : ∀ a b : ℕ, a ≤ b → (a : K) * fdt ≤ b * fdt := by
    intro a b hab
    exact mul_le_mul_of_nonneg_right (by exact_mod_cast hab) hfp.le
  unfold Ahead at hcu hah
  rw [eju] at hcu hgt
  have g1 := hlt ju m hgt
  have g2 := hle _ _ hcu.1
  have hju : ju = m - 1 := by omega
  rw [q5, q2]
  simp only
  rw [eju, ejp, ekp]
  have hp := hah r.prov q3 q4
  rw [ejp, ekp] at hp
  have e3 : ∀ a b d : ℕ, (a : K) * fdt < b * fdt + d * fdt → a + 1 ≤ b + d := by
    intro a b d hab
    apply hlt; push_cast; linarith
  have e4 : ∀ a b d : ℕ, (a : K) * fdt ≤ b * fdt + d * fdt → a ≤ b + d := by
    intro a b d hab
    apply hle; push_cast; linarith
  have key : jp ≤ ju + kp ∧ ju ≤ jp := by
    by_cases hmem : r.prov ∈ pre
    · have p := hp.1 hmem
      have hm0 : (0 : K) < m * fdt := mul_pos (by exact_mod_cast (by omega : 0 < m)) hfp
      have a1 := e3 _ _ _ (p.2.2 hm0)
      have a2 := hle _ _ p.1
      omega
    · have p := hp.2 hmem
      have a1 := e4 _ _ _ p.2.1
      have a2 := hle _ _ p.1
      omega
  constructor
  · have := hle' jp (ju + kp) key.1
    push_cast at this
    linarith
  · exact hle' _ _ key.2

/-! ## Concrete configurations -/

/-- Three components: `f` (step 2 s), `p` (step `dp`, output x), `u` (step `du`, input x). -/
def demoDecl (dp du : ℚ) (c : String) : CompDecl ℚ :=
  if c = "f" then ⟨"Enabled", "seconds", 2, [], []⟩
  else if c = "p" then ⟨"Enabled", "seconds", dp, [], ["x"]⟩
  else if c = "u" then ⟨"Enabled", "seconds", du, ["x"], []⟩
  else ⟨"Disabled", "seconds", 1, [], []⟩

def demoCfg (order : List String) (dp du : ℚ) : Config ℚ := ⟨order, demoDecl dp du⟩

/-- Observables of a run used in the demonstrations: requests as (time, t1, t2), and clocks. -/
def demoLog (cfg : Config ℚ) (n : ℕ) : Option (List (ℚ × ℚ × ℚ)) :=
  match runModel cfg n with
  | .ok (some s) => some (s.log.map (fun r => (r.time, r.win.t1, r.win.t2)))
  | _ => none

theorem demoLog_spec {cfg : Config ℚ} {n : ℕ} {l : List (ℚ × ℚ × ℚ)} (h : demoLog cfg n = some l) :
    ∃ s, runModel cfg n = .ok (some s) ∧
      s.log.map (fun r => (r.time, r.win.t1, r.win.t2)) = l := by
  unfold demoLog at h
  split at h
  · rename_i s hs; exact ⟨s, hs, by simpa using h⟩
  · cases h

/-- The framework step as an option, for kernel evaluation. -/
def demoDt (cfg : Config ℚ) : Option ℚ :=
  match frameworkDt cfg with
  | .ok x => some x
  | .error _ => none

theorem frameworkDt_of_demo {cfg : Config ℚ} {x : ℚ} (h : demoDt cfg = some x) :
    frameworkDt cfg = .ok x := by
  unfold demoDt at h
  split at h
  · rename_i y hy; rw [hy]; simpa using h
  · cases h

theorem demo_wellFormed (dp du : ℚ) (h1 : 0 < dp) (h2 : 0 < du) (order : List String)
    (hn : order.Nodup) (ho : ∀ c ∈ order, c = "f" ∨ c = "p" ∨ c = "u") :
    WellFormed (demoCfg order dp du) := by
  refine ⟨hn, ?_, ?_⟩
  · intro c hc
    rcases ho c hc with rfl | rfl | rfl <;> exact Or.inl (by simp [demoCfg, demoDecl])
  · intro c hc
    rcases ho c hc with rfl | rfl | rfl <;> simp [demoCfg, demoDecl, h1, h2]

/-- C15 fails in general: with steps 2, 2.2 and 4.3 s and the provider listed first, a request is
made before the provider's window (at 4.3 s, window [4.4, 6.6]). -/
theorem C15_request_before_window :
    ∃ s, runModel (demoCfg ["f", "p", "u"] (11/5) (43/10)) 4 = .ok (some s) ∧
      ∃ r ∈ s.log, r.time < r.win.t1 := by
  have h : demoLog (demoCfg ["f", "p", "u"] (11/5) (43/10)) 4 =
      some [(43/10, 22/5, 33/5)] := by decide +kernel
  obtain ⟨s, h1, h2⟩ := demoLog_spec h
  refine ⟨s, h1, ?_⟩
  cases hl : s.log with
  | nil => rw [hl] at h2; cases h2
  | cons r l =>
    rw [hl] at h2
    simp only [List.map_cons, List.cons.injEq, Prod.mk.injEq] at h2
    refine ⟨r, by simp, ?_⟩
    rw [h2.1.1, h2.1.2.1]; norm_num

/-- C15 fails in general: with the provider listed after the user, a request is made after the
provider's window (steps 2, 2.2 and 2.3 s). -/
theorem C15_request_after_window :
    ∃ s, runModel (demoCfg ["f", "u", "p"] (11/5) (23/10)) 3 = .ok (some s) ∧
      ∃ r ∈ s.log, r.win.t2 < r.time := by
  have h : demoLog (demoCfg ["f", "u", "p"] (11/5) (23/10)) 3 =
      some [(23/10, 0, 11/5)] := by decide +kernel
  obtain ⟨s, h1, h2⟩ := demoLog_spec h
  refine ⟨s, h1, ?_⟩
  cases hl : s.log with
  | nil => rw [hl] at h2; cases h2
  | cons r l =>
    rw [hl] at h2
    simp only [List.map_cons, List.cons.injEq, Prod.mk.injEq] at h2
    refine ⟨r, by simp, ?_⟩
    rw [h2.1.1, h2.1.2.2]; norm_num

/-- Non-vacuity of C14, C15 and C16: a well-formed configuration whose run makes requests, with
steps that are whole multiples of the framework step. -/
example : WellFormed (demoCfg ["f", "p", "u"] 4 6) ∧
    demoLog (demoCfg ["f", "p", "u"] 4 6) 8 = some [(6, 4, 8), (12, 12, 16)] ∧
    (∀ c ∈ (demoCfg ["f", "p", "u"] 4 6).provs, ∃ k : ℕ,
      stepSec (demoCfg ["f", "p", "u"] 4 6) c = k * 2) ∧
    frameworkDt (demoCfg ["f", "p", "u"] 4 6) = .ok 2 := by
  refine ⟨demo_wellFormed 4 6 (by norm_num) (by norm_num) _ (by simp) (by simp),
    by decide +kernel, ?_, frameworkDt_of_demo (by decide +kernel)⟩
  intro c hc
  simp only [demoCfg, List.mem_cons, List.not_mem_nil, or_false] at hc
  rcases hc with rfl | rfl | rfl
  · exact ⟨1, by simp [stepSec, demoCfg, demoDecl, secondsPer]⟩
  · exact ⟨2, by simp [stepSec, demoCfg, demoDecl, secondsPer]; norm_num⟩
  · exact ⟨3, by simp [stepSec, demoCfg, demoDecl, secondsPer]; norm_num⟩

/-- The hypotheses of `C14_run_never_raises` and `C16_unique_provider` hold of the demonstration
configuration. -/
example : (∀ u ∈ (demoCfg ["f", "p", "u"] 4 6).provs, ∀ v ∈ ((demoCfg ["f", "p", "u"] 4 6).decl u).inputs,
      v ≠ "" ∧ ListedOnce (demoCfg ["f", "p", "u"] 4 6) v) ∧
    (∀ c ∈ (demoCfg ["f", "p", "u"] 4 6).provs,
      ((demoCfg ["f", "p", "u"] 4 6).decl c).units ∉ ["hours", "h"]) ∧
    checkUsersProviders (demoCfg ["f", "p", "u"] 4 6) = true := by
  refine ⟨?_, ?_, by decide +kernel⟩
  · intro u hu v hv
    simp only [demoCfg, List.mem_cons, List.not_mem_nil, or_false] at hu
    rcases hu with rfl | rfl | rfl <;> simp [demoCfg, demoDecl] at hv
    subst hv
    exact ⟨by decide, by simp [ListedOnce, demoCfg, demoDecl]⟩
  · intro c hc
    simp only [demoCfg, List.mem_cons, List.not_mem_nil, or_false] at hc
    rcases hc with rfl | rfl | rfl <;> simp [demoCfg, demoDecl]

/-- Two providers of the same name: the run does not start. -/
example : ∃ u ∈ ["a", "b"], ∃ v ∈ (["x"] : List String), v ≠ "" ∧
    runModel (⟨["a", "b"], fun _ => ⟨"Enabled", "seconds", 1, ["x"], ["x"]⟩⟩ : Config ℚ) 5 = .ok none := by
  refine ⟨"a", by simp, "x", by simp, by decide, ?_⟩
  exact C16_failed_check_stops_run _ _ ⟨"a", by simp, "x", by simp, by decide, by
    unfold ListedOnce; decide⟩

/-! ## Finding: 'enabled' in lower case -/

/-- One component whose CFG file says `enabled` instead of `Enabled`, step 1 s. -/
def lowerCfg : Config ℚ := ⟨["a"], fun _ => ⟨"enabled", "seconds", 1, [], []⟩⟩

/-- A component whose status is spelled 'enabled' is not treated as disabled (it gets its first
update), but the framework never updates it again: its clock stays at 1 s forever. -/
theorem C14_lowercase_enabled_stuck (n : ℕ) :
    ∃ s, runModel lowerCfg n = .ok (some s) ∧ s.time = n ∧ s.ctime "a" = 1 := by
  have hfd : frameworkDt lowerCfg = .ok 1 := frameworkDt_of_demo (by decide +kernel)
  have hck : checkUsersProviders lowerCfg = true := by decide +kernel
  have hvp : varsProvided lowerCfg "a" = [] := rfl
  have h0 : ∃ s0, tiInit lowerCfg lowerCfg.provs initSt = .ok s0 ∧ s0.time = 0 ∧
      s0.ctime "a" = 1 ∧ s0.cstat "a" = "updated" := by
    have hd : isDisabled (lowerCfg.decl "a").status = false := by decide +kernel
    refine ⟨bmiUpdate lowerCfg "a" initSt, ?_, ?_, ?_, ?_⟩
    · show tiInit lowerCfg ["a"] initSt = _
      rw [tiInit, bind_ok]
      refine ⟨_, ?_, rfl⟩
      unfold tiInitComp
      simp only [hvp, createWins, List.foldl_nil, shiftWins, bind_ok]
      exact ⟨0, rfl, _, tiConvert_isOk (by decide) (by decide), _, rfl, rfl⟩
    · unfold bmiUpdate; rw [hd]; rfl
    · unfold bmiUpdate; rw [hd]; simp [initSt, lowerCfg]
    · unfold bmiUpdate; rw [hd]; simp
  obtain ⟨s0, h0, h01, h02, h03⟩ := h0
  have hs : ∃ s, steps lowerCfg 1 n s0 = .ok s ∧ s.time = n ∧ s.ctime "a" = 1 ∧
      s.cstat "a" = "updated" := by
    induction n with
    | zero => exact ⟨s0, rfl, by simpa using h01, h02, h03⟩
    | succ n ih =>
      obtain ⟨s, e1, e2, e3, e4⟩ := ih
      have : ∃ s1, compStep lowerCfg "a" s = .ok s1 ∧ s1.time = s.time ∧ s1.ctime "a" = 1 ∧
          s1.cstat "a" = "updated" := by
        unfold compStep
        simp only
        split_ifs with h1 h2
        · exact absurd h2 (by decide)
        · rw [show (lowerCfg.decl "a").inputs = [] from rfl]
          simp only [getRequiredVars, bind_ok]
          refine ⟨s, ⟨s, rfl, ?_⟩, rfl, e3, e4⟩
          unfold tiUpdate2
          rw [e4, if_neg (by decide), hvp]
          simp only [bind_ok]
          exact ⟨_, tiConvert_isOk (by decide) (by decide), s.win, rfl, rfl⟩
        · exact ⟨s, rfl, rfl, e3, e4⟩
      obtain ⟨s1, f1, f2, f3, f4⟩ := this
      refine ⟨{ s1 with time := s1.time + 1 }, ?_, ?_, f3, f4⟩
      · rw [steps, bind_ok]
        refine ⟨s, e1, ?_⟩
        unfold frameworkStep
        rw [bind_ok]
        refine ⟨s1, ?_, rfl⟩
        show compLoop lowerCfg ["a"] s = _
        rw [compLoop, bind_ok]; exact ⟨s1, f1, rfl⟩
      · show s1.time + 1 = _
        rw [f2, e2]; push_cast; ring
  obtain ⟨s, e1, e2, e3, -⟩ := hs
  refine ⟨s, ?_, e2, e3⟩
  unfold runModel
  rw [if_pos hck]
  simp only [bind_ok, pure, Except.pure, Except.ok.injEq, Option.some.injEq]
  exact ⟨1, hfd, s0, h0, s, e1, rfl⟩

end Emeli
