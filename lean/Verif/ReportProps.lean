import Verif.ReportModel
import Verif.TimeInterpProps
import Verif.StartProps
import Mathlib.Data.Rat.Defs
import Mathlib.Algebra.Order.Ring.Rat
import Mathlib.Data.List.Basic

/-!
# C225: the storage volumes in the final report
-/

set_option autoImplicit false
set_option maxRecDepth 100000
set_option linter.unusedSectionVars false

namespace ReportSpec

open Report Repo

variable {K : Type*} [Field K] [LinearOrder K]

/-- The storage of a component at the end of the run: a component that is switched off has done
nothing. -/
def atEnd (e : Ended K) (p : Comp) : K := if e.off p then e.start p else e.fin p

/-- `p` is listed before the first mention of the driver. -/
def BeforeDriver (l : List Comp) (p : Comp) : Prop :=
  ∃ pre post, l = pre ++ .topoflow_driver :: post ∧ .topoflow_driver ∉ pre ∧ p ∈ pre

end ReportSpec

namespace Report

open ReportSpec Repo TInterp

variable {K : Type*} [Field K] [LinearOrder K] [IsStrictOrderedRing K]

theorem delivered_const (v t0 time : K) (ts : List K) :
    delivered true (fun _ : Unit => v) t0 (ts.map (fun t => (.inplace (fun _ => v), t))) time () = v
      ∨ ts = [] := by
  rcases List.eq_nil_or_concat ts with h | ⟨xs, t, rfl⟩
  · exact .inr h
  · left
    rw [List.concat_eq_append, List.map_append, List.map_singleton, delivered_eq]
    refine (if_neg ?_).trans rfl
    rintro ⟨h, -⟩
    refine h () ?_
    split_ifs with h1
    · rfl
    · rcases List.eq_nil_or_concat xs with h2 | ⟨ys, s, rfl⟩
      · subst h2; rfl
      · rw [List.concat_eq_append, List.map_append, List.map_singleton, lastVal_append]
    · rfl
    · rcases List.eq_nil_or_concat xs with h2 | ⟨ys, s, rfl⟩
      · subst h2; rfl
      · rw [List.concat_eq_append, List.map_append, List.map_singleton, lastVal_append]

/-- What the driver gets of a component that was updated at least once. -/
theorem delivers_eq (e : Ended K) {p : Comp} (h : e.times p ≠ []) (b : Bool) :
    delivers e b p = if b = true then atEnd e p else e.start p := by
  unfold delivers atEnd
  cases b <;> cases e.off p <;> cases e.linear <;>
    simp [(delivered_const (e.start p) 0 e.now (e.times p)).resolve_right h]

theorem finalizeAll_eq (e : Ended K) (hon : e.off .topoflow_driver = false) (pre : List Comp) :
    ∀ done post, Comp.topoflow_driver ∉ pre →
    finalizeAll e done (pre ++ .topoflow_driver :: post) =
      some (fun p => delivers e ((done ++ pre).elem p) p) := by
  induction pre with
  | nil => intro done post _; simp [finalizeAll, hon]
  | cons c pre ih =>
    intro done post h
    have hc : c ≠ .topoflow_driver := fun hc => h (by simp [hc])
    rw [List.cons_append, finalizeAll, if_neg hc, ih _ _ (fun hh => h (List.mem_cons_of_mem _ hh))]
    simp

theorem first_mention {l : List Comp} (hl : Comp.topoflow_driver ∈ l) :
    ∃ pre post, l = pre ++ .topoflow_driver :: post ∧ Comp.topoflow_driver ∉ pre := by
  induction l with
  | nil => cases hl
  | cons c l ih =>
    by_cases hc : c = .topoflow_driver
    · exact ⟨[], l, by simp [hc], by simp⟩
    · obtain ⟨pre, post, h1, h2⟩ := ih (List.mem_of_ne_of_mem (Ne.symm hc) hl)
      exact ⟨c :: pre, post, by simp [h1], by simp [h2, Ne.symm hc]⟩

theorem takeWhile_first {x : List Comp} (h : Comp.topoflow_driver ∉ x) (y : List Comp) :
    (x ++ .topoflow_driver :: y).takeWhile (fun c => decide (c ≠ .topoflow_driver)) = x := by
  induction x with
  | nil => simp
  | cons c x ih =>
    have hc : c ≠ .topoflow_driver := fun hc => h (by simp [hc])
    rw [List.cons_append, List.takeWhile_cons_of_pos (by simp [hc]),
      ih (fun hh => h (List.mem_cons_of_mem _ hh))]

theorem before_iff {pre post : List Comp} (h : Comp.topoflow_driver ∉ pre) (p : Comp) :
    BeforeDriver (pre ++ .topoflow_driver :: post) p ↔ p ∈ pre := by
  constructor
  · rintro ⟨pre', post', he, hn, hp⟩
    have this : pre = pre' := by rw [← takeWhile_first h post, he, takeWhile_first hn post']
    rw [this]; exact hp
  · intro hp
    exact ⟨pre, post, rfl, h, hp⟩

/-- **C225.**  The driver prints a report whenever it is in the provider file and switched on, and the
storage of a component in this report is the one at the end of the run exactly if the component is listed
before the driver or the storage did not change in the run. -/
theorem C225_report_iff (e : Ended K) (hon : e.off .topoflow_driver = false)
    (hup : ∀ p, e.times p ≠ []) {l : List Comp} (hl : .topoflow_driver ∈ l) :
    ∃ r, finalizeAll e [] l = some r ∧
      ∀ p, (r p = atEnd e p ↔ BeforeDriver l p ∨ atEnd e p = e.start p) ∧
        (¬ BeforeDriver l p → r p = e.start p) := by
  obtain ⟨pre, post, rfl, hpre⟩ := first_mention hl
  refine ⟨_, finalizeAll_eq e hon pre [] post hpre, fun p => ?_⟩
  rw [before_iff hpre, delivers_eq e (hup p)]
  by_cases hp : p ∈ pre
  · simp [hp]
  · simp [hp, eq_comm]

/-- **C225, partial**: with the driver listed last, as in the shipped provider files, all storages in
the report are those at the end of the run. -/
theorem C225_driver_last_partial (e : Ended K) (hon : e.off .topoflow_driver = false)
    (hup : ∀ p, e.times p ≠ []) {others : List Comp} (ho : .topoflow_driver ∉ others) :
    ∃ r, finalizeAll e [] (others ++ [.topoflow_driver]) = some r ∧
      ∀ p ∈ others, r p = atEnd e p := by
  obtain ⟨r, hr, h⟩ := C225_report_iff e hon hup (l := others ++ [.topoflow_driver]) (by simp)
  exact ⟨r, hr, fun p hp => (h p).1.2 (.inl ((before_iff ho p).2 hp))⟩

/-- A provider file with the driver before snow and infiltration. -/
def driverEarly : List Comp :=
  [.tf_meteorology, .tf_channels_kin_wave, .topoflow_driver, .tf_snow_degree_day,
   .tf_satzone_darcy_layers, .tf_evap_priestley_taylor, .tf_infil_richards_1d, .tf_ice_gc2d]

/-- **C225 is violated**: the same model, listed with the driver before snow and infiltration, starts
just as well, but the report then gives for the snow the volume of the start, whatever fell or melted. -/
theorem C225_violated (e : Ended K) (hoff : e.off = Start.dryGround) (hup : ∀ p, e.times p ≠ []) :
    driverEarly.Perm Start.wholeModel ∧
    (∃ r, Start.initSet (Start.shipped Start.dryGround true) driverEarly = .ok r) ∧
    ∃ r, finalizeAll e [] driverEarly = some r ∧
      ∀ p ∈ [Comp.tf_snow_degree_day, Comp.tf_infil_richards_1d],
        r p = e.start p ∧ (e.fin p ≠ e.start p → r p ≠ e.fin p) := by
  have hperm : driverEarly.Perm Start.wholeModel := by decide
  refine ⟨hperm, ?_, ?_⟩
  · exact (Start.C223_order_partial Start.dryGround true (by decide) hperm
      (Start.whole_starts true)).2 (Start.inOrder_of _ (by decide))
  · obtain ⟨r, hr, h⟩ := C225_report_iff e (by rw [hoff]; rfl) hup (l := driverEarly) (by decide)
    refine ⟨r, hr, fun p hp => ?_⟩
    have hb : ¬ BeforeDriver driverEarly p := by
      rw [show driverEarly = [Comp.tf_meteorology, Comp.tf_channels_kin_wave] ++
        .topoflow_driver :: [.tf_snow_degree_day, .tf_satzone_darcy_layers,
          .tf_evap_priestley_taylor, .tf_infil_richards_1d, .tf_ice_gc2d] from rfl,
        before_iff (by decide)]
      revert hp
      cases p <;> decide
    have hs := (h p).2 hb
    exact ⟨hs, fun hne => by rw [hs]; exact fun he => hne he.symm⟩

/-- The hypotheses are met: a run with two updates of every component in which snow melts. -/
example : ∃ e : Ended ℚ, (∀ p, e.times p ≠ []) ∧ e.off = Start.dryGround ∧
    e.fin .tf_snow_degree_day ≠ e.start .tf_snow_degree_day :=
  ⟨⟨Start.dryGround, true, 20, fun _ => 5, fun _ => 3, fun _ => [10, 20]⟩, by simp, rfl, by norm_num⟩

end Report
