import Verif.FinishModel

/-!
# C245: closing the input files at the end of a run
-/

set_option autoImplicit false

namespace Finish

open Repo

/-! ## Specification -/

/-- A component could be initialised: the file of every input that is not a single number was found
(otherwise reading its first value fails). -/
def Started (c : Comp) (g : Cfg) : Prop :=
  ∀ s ∈ slots c g.layers, (g.type s).toLower ≠ "scalar" → g.found s = true

/-- All is closed: the input files that were opened, and the output files. -/
def AllClosed (c : Comp) (g : Cfg) : Prop :=
  finalizeOne c g = ⟨opened c g, true, none⟩

/-- Types of single numbers are spelled `Scalar`. -/
def Spelled (c : Comp) (g : Cfg) : Prop :=
  ∀ s ∈ slots c g.layers, (g.type s).toLower = "scalar" → g.type s = "Scalar"

/-- The nine components that take only the spelling `Scalar` for a single number when they close. -/
def Exact (c : Comp) : Prop :=
  c ∈ [Comp.tf_meteorology, .tf_snow_energy_balance, .tf_glacier_energy_balance,
    .tf_evap_priestley_taylor, .tf_evap_energy_balance, .tf_infil_green_ampt,
    .tf_infil_smith_parlange, .tf_infil_beven, .tf_infil_richards_1d]

/-! ## Closing -/

theorem exact_iff (c : Comp) : Exact c ↔ exactCase c = true := by
  unfold Exact; cases c <;> decide

theorem not_exact_iff (c : Comp) : ¬ Exact c ↔ exactCase c = false := by
  rw [exact_iff]; simp

theorem openFile_eq {t : String} {f : Bool} (h : t.toLower ≠ "scalar") (hf : f = true) :
    openFile t f = some () := by
  rw [openFile, if_neg h, if_pos hf]

theorem openFile_scalar {t : String} (f : Bool) (h : t.toLower = "scalar") :
    openFile t f = none := by
  rw [openFile, if_pos h]

theorem scalar_lower : ("Scalar" : String).toLower = "scalar" := by decide +kernel

theorem wantsClose_grid {c : Comp} {t : String} (h : t.toLower ≠ "scalar") :
    wantsClose c t = true := by
  unfold wantsClose
  cases exactCase c
  · simpa using h
  · have : t ≠ "Scalar" := by rintro rfl; exact h scalar_lower
    simpa using this

theorem wantsClose_scalar {c : Comp} {t : String} (h : t.toLower = "scalar") :
    wantsClose c t = true ↔ exactCase c = true ∧ t ≠ "Scalar" := by
  unfold wantsClose
  cases exactCase c <;> simp [h]

theorem closeAll_ok (c : Comp) (g : Cfg) : ∀ l : List Slot,
    (∀ s ∈ l, (g.type s).toLower ≠ "scalar" → g.found s = true) →
    (∀ s ∈ l, (g.type s).toLower = "scalar" → exactCase c = false ∨ g.type s = "Scalar") →
    closeAll c g l = (l.filter (fun s => (openFile (g.type s) (g.found s)).isSome), none)
  | [], _, _ => rfl
  | s :: l, h1, h2 => by
    have ih := closeAll_ok c g l (fun x hx => h1 x (by simp [hx])) (fun x hx => h2 x (by simp [hx]))
    rw [closeAll, ih]
    by_cases hs : (g.type s).toLower = "scalar"
    · have ho := openFile_scalar (g.found s) hs
      have hw : wantsClose c (g.type s) = false := by
        cases hx : wantsClose c (g.type s) with
        | false => rfl
        | true =>
          obtain ⟨a, b⟩ := (wantsClose_scalar hs).1 hx
          rcases h2 s (by simp) hs with h | h
          · rw [a] at h; cases h
          · exact absurd h b
      simp [ho, hw]
    · have ho := openFile_eq (f := g.found s) hs (h1 s (by simp) hs)
      simp [ho, wantsClose_grid (c := c) hs]

theorem closeAll_error (c : Comp) (g : Cfg) (he : exactCase c = true) :
    ∀ l : List Slot, (∃ s ∈ l, (g.type s).toLower = "scalar" ∧ g.type s ≠ "Scalar") →
    (closeAll c g l).2 = some "AttributeError"
  | [], h => by simp at h
  | s :: l, h => by
    have hc : c ≠ .tf_evap_read_file := by rintro rfl; cases he
    rw [closeAll, if_neg hc]
    by_cases hs : (g.type s).toLower = "scalar" ∧ g.type s ≠ "Scalar"
    · rw [if_pos ((wantsClose_scalar hs.1).2 ⟨he, hs.2⟩), openFile_scalar _ hs.1]
    · have ih := closeAll_error c g he l (by
        obtain ⟨x, hx, hy⟩ := h
        rcases List.mem_cons.1 hx with rfl | hx
        · exact absurd hy hs
        · exact ⟨x, hx, hy⟩)
      by_cases hw : wantsClose c (g.type s) = true
      · rw [if_pos hw]
        cases openFile (g.type s) (g.found s) with
        | none => rfl
        | some u => exact ih
      · rw [if_neg hw]; exact ih

/-- **When all is closed.** A component that is on and was initialised closes, at the end, all input
files it opened and its output files, exactly if it compares types in lower case or the types of
single numbers are spelled `Scalar`; otherwise `finalize` raises AttributeError and the output files
stay open. -/
theorem C245_closes_iff (c : Comp) (g : Cfg) (ho : g.off = false) (hs : Started c g) :
    (AllClosed c g ↔ ¬ Exact c ∨ Spelled c g) ∧
    (¬ (¬ Exact c ∨ Spelled c g) →
      (finalizeOne c g).raised = some "AttributeError" ∧ (finalizeOne c g).outputs = false) := by
  rw [not_exact_iff]
  have key : ¬ (exactCase c = false ∨ Spelled c g) →
      (finalizeOne c g).raised = some "AttributeError" ∧ (finalizeOne c g).outputs = false := by
    intro h
    rw [not_or] at h
    obtain ⟨h1, h2⟩ := h
    have h1 : exactCase c = true := by simpa using h1
    unfold Spelled at h2
    push Not at h2
    have := closeAll_error c g h1 (slots c g.layers) h2
    unfold finalizeOne
    rw [ho]
    rcases hx : closeAll c g (slots c g.layers) with ⟨l, o⟩
    rw [hx] at this
    simp only at this
    subst this
    simp
  refine ⟨⟨fun h => ?_, fun h => ?_⟩, key⟩
  · by_contra hn
    have := (key hn).1
    rw [h] at this
    cases this
  · have := closeAll_ok c g (slots c g.layers) hs (by
      intro s hs' hl
      rcases h with h | h
      · exact .inl h
      · exact .inr (h s hs' hl))
    unfold AllClosed finalizeOne
    rw [ho, this]
    rfl

/-- **C245, the part that holds**: channels, degree-day snow and groundwater close their files
however the types are spelled. -/
theorem C245_any_spelling_partial {c : Comp}
    (hc : c ∈ [Comp.tf_channels_kin_wave, .tf_channels_diff_wave, .tf_channels_dynam_wave,
      .tf_snow_degree_day, .tf_satzone_darcy_layers, .tf_satzone_attenuate])
    (g : Cfg) (ho : g.off = false) (hs : Started c g) : AllClosed c g := by
  refine (C245_closes_iff c g ho hs).1.2 (.inl ?_)
  rw [not_exact_iff]
  revert hc; cases c <;> decide

/-- **C245, the part that holds**: with the spelling `Scalar` every component closes its files. -/
theorem C245_spelled_partial (c : Comp) (g : Cfg) (ho : g.off = false) (hs : Started c g)
    (hp : Spelled c g) : AllClosed c g :=
  (C245_closes_iff c g ho hs).1.2 (.inr hp)

/-- **C245**: the whole run.  `finalize_all` finalises all components, and none raises an exception,
exactly if this holds of each component that is on. -/
theorem C245_run_iff (g : Comp → Cfg) (l : List Comp)
    (hs : ∀ c ∈ l, (g c).off = false → Started c (g c)) :
    finalizeAll g l = l.map (fun c => (c, finalizeOne c (g c))) ∧
      (∀ c ∈ l, (finalizeOne c (g c)).raised = none) ↔
    ∀ c ∈ l, (g c).off = false → ¬ Exact c ∨ Spelled c (g c) := by
  have hone : ∀ c ∈ l, (finalizeOne c (g c)).raised = none ↔
      ((g c).off = false → ¬ Exact c ∨ Spelled c (g c)) := by
    intro c hc
    cases ho : (g c).off with
    | true => simp [finalizeOne, ho]
    | false =>
      obtain ⟨h1, h2⟩ := C245_closes_iff c (g c) ho (hs c hc ho)
      constructor
      · intro h _
        by_contra hn
        rw [(h2 hn).1] at h; cases h
      · intro h
        have := h1.2 (h rfl)
        rw [this]
  constructor
  · rintro ⟨-, h⟩ c hc
    exact (hone c hc).1 (h c hc)
  · intro h
    have hr : ∀ c ∈ l, (finalizeOne c (g c)).raised = none := fun c hc => (hone c hc).2 (h c hc)
    refine ⟨?_, hr⟩
    clear h hone hs
    induction l with
    | nil => rfl
    | cons c l ih =>
      rw [finalizeAll, if_pos (hr c (by simp)), ih (fun d hd => hr d (by simp [hd]))]
      rfl

/-- **C245**: a component that is switched off closes nothing, also not output files, and raises no
exception. -/
theorem C245_off (c : Comp) (g : Cfg) (ho : g.off = true) :
    (finalizeOne c g).inputs = [] ∧ (finalizeOne c g).outputs = false ∧
    (finalizeOne c g).raised = none := by
  simp [finalizeOne, ho]

/-- **C245 is violated** by the nine components that compare exactly: with any other spelling of a
single number's type `finalize` raises AttributeError, the output files of the component stay open,
and the components after it are not finalised. -/
theorem C245_violated (g : Comp → Cfg) (pre post : List Comp) {c : Comp}
    (hc : Exact c) (ho : (g c).off = false) (hs : Started c (g c))
    (hx : ∃ s ∈ slots c (g c).layers, ((g c).type s).toLower = "scalar" ∧ (g c).type s ≠ "Scalar")
    (hp : ∀ p ∈ pre, (finalizeOne p (g p)).raised = none) :
    (finalizeOne c (g c)).raised = some "AttributeError" ∧
    (finalizeOne c (g c)).outputs = false ∧
    finalizeAll g (pre ++ c :: post) =
      (pre ++ [c]).map (fun d => (d, finalizeOne d (g d))) := by
  have h := (C245_closes_iff c (g c) ho hs).2 (by
    rintro (h | h)
    · exact h hc
    · obtain ⟨s, h1, h2, h3⟩ := hx
      exact h3 (h s h1 h2))
  refine ⟨h.1, h.2, ?_⟩
  clear hx hs
  induction pre with
  | nil =>
    rw [List.nil_append, finalizeAll, if_neg (by rw [h.1]; simp)]
    rfl
  | cons d pre ih =>
    rw [List.cons_append, finalizeAll, if_pos (hp d (by simp)),
      ih (fun p hp' => hp p (by simp [hp']))]
    rfl

/-- A CFG file with rain as a time series, the other inputs of the type `t`. -/
def sample (t : String) : Cfg where
  off := false
  layers := 1
  type := fun s => if s.1 = "P" then "Time_Series" else t
  found := fun _ => true

/-- With `Scalar`, the rain file and the output files are closed; with `scalar`, the run fails when
the input files of the meteorology are closed, and the infiltration is not finalised. -/
example : finalizeAll (fun _ => sample "Scalar") [.tf_meteorology, .tf_infil_richards_1d] =
    [(.tf_meteorology, ⟨[("P", 0)], true, none⟩), (.tf_infil_richards_1d, ⟨[], true, none⟩)] := by
  decide +kernel

example : finalizeAll (fun _ => sample "scalar")
    [.tf_channels_kin_wave, .tf_meteorology, .tf_infil_richards_1d] =
    [(.tf_channels_kin_wave, ⟨[], true, none⟩),
     (.tf_meteorology, ⟨[("P", 0)], false, some "AttributeError"⟩)] := by
  decide +kernel

/-- The hypotheses of `C245_violated` are met by this run. -/
example : Started .tf_meteorology (sample "scalar") ∧
    ∃ s ∈ slots .tf_meteorology 1, ((sample "scalar").type s).toLower = "scalar" ∧
      (sample "scalar").type s ≠ "Scalar" :=
  ⟨fun _ _ _ => rfl, ("T_air", 0), by decide, by decide +kernel, by decide +kernel⟩

end Finish
