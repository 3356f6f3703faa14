import Verif.DefaultModel
import Mathlib.Tactic.NormNum

/-!
# C274: options missing from older configuration files; C275: the threshold between rain and snow
-/

set_option autoImplicit false

namespace DefaultsSpec

open Opts (Val)

/-- The defaults of the meteorology component; `year` is the present year. -/
def met (year : ℚ) : List (String × Val) :=
  [("PRECIP_ONLY", .bool false), ("P_factor", .num 1), ("T_rain_snow_type", .str "Scalar"),
    ("T_rain_snow", .num 1), ("SATTERLUND", .bool false), ("NGEN_CSV", .bool false),
    ("start_year", .num year)] ++
  (["SAVE_QSW_GRIDS", "SAVE_QLW_GRIDS", "SAVE_TSURF_GRIDS", "SAVE_ALB_GRIDS", "SAVE_QSW_PIXELS",
    "SAVE_QLW_PIXELS", "SAVE_TSURF_PIXELS", "SAVE_ALB_PIXELS"].map fun n => (n, .bool false))

/-- The defaults of the driver. -/
def driver (home : String) : List (String × Val) :=
  [("COMPUTE_STAT_GRIDS", .bool false), ("CREATE_INDICATORS", .bool false),
    ("CREATE_MEDIA_FILES", .bool false), ("media_directory", .str (home ++ "/media/"))]

/-- The defaults of the infiltration components. -/
def infil : List (String × Val) :=
  [("SINGLE_PROFILE", .bool true), ("CHECK_STABILITY", .bool false), ("save_cube_dt", .num 60)] ++
  (["SAVE_Q0_GRIDS", "SAVE_ZW_GRIDS", "SAVE_Q0_PIXELS", "SAVE_ZW_PIXELS", "SAVE_Q_CUBES", "SAVE_P_CUBES",
    "SAVE_K_CUBES", "SAVE_V_CUBES"].map fun n => (n, .bool false)) ++
  (["q_cs_file", "p_cs_file", "K_cs_file", "v_cs_file"].map fun n => (n, .str ""))

/-- `out` is the configuration `cfg` completed by `defaults`, apart from the options in `except`: what is given
is kept, what is missing gets its default, and nothing else is added. -/
def Completed (defaults : List (String × Val)) (except : List String) (cfg out : String → Option Val) : Prop :=
  (∀ n v, n ∉ except → cfg n = some v → out n = some v) ∧
  (∀ n v, n ∉ except → cfg n = none → (n, v) ∈ defaults → out n = some v) ∧
  (∀ n, n ∉ except → cfg n = none → n ∉ defaults.map Prod.fst → out n = none)

/-- The entries for the names of the output files of the meteorology component. -/
def metFiles : List String :=
  ["ea", "es", "Qsw", "Qlw", "ema", "tsurf", "alb"].map (· ++ "_gs_file") ++
    ["ea", "es", "Qsw", "Qlw", "ema", "tsurf", "alb"].map (· ++ "_ts_file")

/-- An option counts as on: the text, number or truth value is not empty, zero or False. -/
def On (v : Option Val) : Prop :=
  v = some (.bool true) ∨ (∃ x : ℚ, x ≠ 0 ∧ v = some (.num x)) ∨ ∃ s : String, s ≠ "" ∧ v = some (.str s)

/-- The type of an entry is "Scalar", in upper or lower case letters. -/
def Scalar (ty : String) : Prop := ty.toList.map Char.toLower = ['s', 'c', 'a', 'l', 'a', 'r']

/-- Rain and snow of a cell with precipitation `P`: all snow if the air is not warmer than `thr`. -/
def Split (thr P T rain snow : ℚ) : Prop :=
  (thr < T → rain = P ∧ snow = 0) ∧ (T ≤ thr → rain = 0 ∧ snow = P)

end DefaultsSpec

namespace Defaults

open Opts (Val truthy)
open DefaultsSpec (Completed On Scalar Split metFiles)

theorem setMissing_given : ∀ (l : List (String × Val)) (a : Attrs) (n : String) (v : Val), a n = some v →
    setMissing l a n = some v := by
  intro l
  induction l with
  | nil => intro a n v h; exact h
  | cons r l ih =>
    obtain ⟨m, w⟩ := r
    intro a n v h
    refine ih _ n v ?_
    unfold orElse put
    split
    · rename_i hm
      dsimp only
      split
      · rename_i he; rw [he] at h; rw [hm] at h; cases h
      · exact h
    · exact h

theorem setMissing_none : ∀ (l : List (String × Val)) (a : Attrs) (n : String), a n = none →
    n ∉ l.map Prod.fst → setMissing l a n = none := by
  intro l
  induction l with
  | nil => intro a n h _; exact h
  | cons r l ih =>
    obtain ⟨m, w⟩ := r
    intro a n h hn
    simp only [List.map_cons, List.mem_cons, not_or] at hn
    refine ih _ n ?_ hn.2
    unfold orElse put
    split
    · simp [hn.1, h]
    · exact h

theorem setMissing_default : ∀ (l : List (String × Val)) (a : Attrs) (n : String) (v : Val),
    (l.map Prod.fst).Nodup → a n = none → (n, v) ∈ l → setMissing l a n = some v := by
  intro l
  induction l with
  | nil => intro a n v _ _ h; cases h
  | cons r l ih =>
    obtain ⟨m, w⟩ := r
    intro a n v hd h hm
    rw [List.map_cons, List.nodup_cons] at hd
    rcases List.mem_cons.1 hm with he | he
    · injection he with h1 h2
      subst h1 h2
      refine setMissing_given l _ n v ?_
      simp [orElse, h, put]
    · have hne : n ≠ m := by
        rintro rfl
        exact hd.1 (List.mem_map.2 ⟨_, he, rfl⟩)
      refine ih _ n v hd.2 ?_ he
      unfold orElse put
      split
      · simp [hne, h]
      · exact h

theorem setMissing_completed (l d : List (String × Val)) (hd : (l.map Prod.fst).Nodup)
    (hmem : ∀ x, x ∈ d ↔ x ∈ l) (cfg : Attrs) : Completed d [] cfg (setMissing l cfg) := by
  refine ⟨fun n v _ h => setMissing_given l cfg n v h,
    fun n v _ h hm => setMissing_default l cfg n v hd h ((hmem _).1 hm), fun n _ h hn => ?_⟩
  refine setMissing_none l cfg n h ?_
  intro hc
  apply hn
  obtain ⟨x, hx, he⟩ := List.mem_map.1 hc
  exact List.mem_map.2 ⟨x, (hmem x).2 hx, he⟩

theorem metMissing_mem (year : ℚ) (x : String × Val) : x ∈ DefaultsSpec.met year ↔ x ∈ metMissing year := by
  simp [DefaultsSpec.met, metMissing]

theorem metMissing_nodup (year : ℚ) : ((metMissing year).map Prod.fst).Nodup := by
  simp [metMissing]

theorem truthy_iff (v : Val) : truthy v = true ↔ On (some v) := by
  cases v <;> simp [truthy, On]

theorem joinNames_ok (dir : String) : ∀ (l : List String) (a : Attrs), l.Nodup →
    (∀ n ∈ l, ∃ s, a n = some (.str s)) →
    ∃ b, joinNames dir l a = .ok b ∧ (∀ n, n ∉ l → b n = a n) ∧
      ∀ n ∈ l, ∀ s, a n = some (.str s) → b n = some (.str (dir ++ s)) := by
  intro l
  induction l with
  | nil => intro a _ _; exact ⟨a, rfl, fun _ _ => rfl, fun n hn => by cases hn⟩
  | cons m l ih =>
    intro a hd h
    rw [List.nodup_cons] at hd
    obtain ⟨s, hs⟩ := h m (by simp)
    obtain ⟨b, e, h1, h2⟩ := ih (put a m (.str (dir ++ s))) hd.2 (by
      intro n hn
      have hne : n ≠ m := fun he => hd.1 (he ▸ hn)
      simpa [put, hne] using h n (by simp [hn]))
    refine ⟨b, by rw [joinNames, hs]; exact e, ?_, ?_⟩
    · intro n hn
      simp only [List.mem_cons, not_or] at hn
      rw [h1 n hn.2]
      simp [put, hn.1]
    · intro n hn t ht
      by_cases hnm : n = m
      · subst hnm
        rw [h1 n hd.1]
        rw [hs] at ht
        injection ht with ht
        injection ht with ht
        subst ht
        simp [put]
      · have hn' : n ∈ l := by simpa [hnm] using hn
        exact h2 n hn' t (by simpa [put, hnm] using ht)

theorem joinNames_error (dir : String) : ∀ (l : List String) (a : Attrs), l.Nodup →
    (∃ n ∈ l, ∀ s, a n ≠ some (.str s)) → ∃ e, joinNames dir l a = .error e := by
  intro l
  induction l with
  | nil => rintro a _ ⟨n, hn, -⟩; cases hn
  | cons m l ih =>
    rintro a hd ⟨n, hn, h⟩
    rw [List.nodup_cons] at hd
    rw [joinNames]
    rcases hm : a m with _ | (b | x | s)
    · exact ⟨_, rfl⟩
    · exact ⟨_, rfl⟩
    · exact ⟨_, rfl⟩
    · have hne : n ≠ m := by rintro rfl; exact h s hm
      have hn' : n ∈ l := by simpa [hne] using hn
      refine ih _ hd.2 ⟨n, hn', ?_⟩
      intro t
      simpa [put, hne] using h t

theorem metNames_eq : metNames = metFiles := by decide +kernel

/-- The option for precipitation only, after the defaults are set. -/
theorem precip_only (year : ℚ) (cfg : Attrs) : ∃ v, setMissing (metMissing year) cfg "PRECIP_ONLY" = some v ∧
    (truthy v = true ↔ On (cfg "PRECIP_ONLY")) := by
  rcases h : cfg "PRECIP_ONLY" with _ | v
  · refine ⟨.bool false, setMissing_default _ _ _ _ (metMissing_nodup year) h (by simp [metMissing]), ?_⟩
    simp [truthy, On]
  · exact ⟨v, setMissing_given _ _ _ _ h, truthy_iff v⟩

/-- **C274** (meteorology).  Missing: the start fails without the names of the newer output files, see below.
In every start that succeeds, the options given are kept and the missing ones get their defaults; the names of
output files are kept for precipitation only and otherwise get the output directory in front. -/
theorem C274_met_partial (year : ℚ) (dir : String) (cfg out : Attrs) (h : metStart year dir cfg = .ok out) :
    Completed (DefaultsSpec.met year) metFiles cfg out ∧
    (∀ n ∈ metFiles, On (cfg "PRECIP_ONLY") → out n = cfg n) ∧
    (∀ n ∈ metFiles, ¬ On (cfg "PRECIP_ONLY") → ∃ s, cfg n = some (.str s) ∧
      out n = some (.str (dir ++ s))) := by
  have hc := setMissing_completed (metMissing year) (DefaultsSpec.met year) (metMissing_nodup year)
    (metMissing_mem year) cfg
  have hnot : ∀ n ∈ metFiles, n ∉ (DefaultsSpec.met year).map Prod.fst := by
    have : (DefaultsSpec.met year).map Prod.fst = (DefaultsSpec.met 0).map Prod.fst := by
      simp [DefaultsSpec.met]
    rw [this]
    decide +kernel
  have hfile : ∀ n ∈ metFiles, setMissing (metMissing year) cfg n = cfg n := by
    intro n hn
    rcases he : cfg n with _ | v
    · exact hc.2.2 n (by simp) he (hnot n hn)
    · exact hc.1 n v (by simp) he
  obtain ⟨v, hv, ht⟩ := precip_only year cfg
  unfold metStart at h
  simp only [hv] at h
  by_cases hon : truthy v = true
  · rw [if_pos hon] at h
    injection h with h
    subst h
    refine ⟨⟨fun n v _ => hc.1 n v (by simp), fun n v _ => hc.2.1 n v (by simp),
      fun n _ => hc.2.2 n (by simp)⟩, fun n hn _ => hfile n hn, fun n _ hno => absurd (ht.1 hon) hno⟩
  · rw [if_neg hon] at h
    have hnd : metNames.Nodup := by decide +kernel
    by_cases hall : ∀ n ∈ metNames, ∃ s, setMissing (metMissing year) cfg n = some (.str s)
    · obtain ⟨b, e, h1, h2⟩ := joinNames_ok dir metNames _ hnd hall
      rw [e] at h
      injection h with h
      subst h
      refine ⟨⟨fun n v hn hg => ?_, fun n v hn hg hm => ?_, fun n hn hg hm => ?_⟩,
        fun n _ ho => absurd (ht.2 ho) hon, fun n hn _ => ?_⟩
      · rw [h1 n (metNames_eq ▸ hn)]; exact hc.1 n v (by simp) hg
      · rw [h1 n (metNames_eq ▸ hn)]; exact hc.2.1 n v (by simp) hg hm
      · rw [h1 n (metNames_eq ▸ hn)]; exact hc.2.2 n (by simp) hg hm
      · obtain ⟨s, hs⟩ := hall n (metNames_eq ▸ hn)
        exact ⟨s, by rw [← hfile n hn]; exact hs, h2 n (metNames_eq ▸ hn) s hs⟩
    · push Not at hall
      obtain ⟨e, he⟩ := joinNames_error dir metNames _ hnd hall
      rw [he] at h
      cases h

/-- **C274** (meteorology).  The start succeeds exactly if only precipitation is wanted or all fourteen names of
output files are given, whether or not anything is saved. -/
theorem C274_met_start_iff (year : ℚ) (dir : String) (cfg : Attrs) :
    (∃ out, metStart year dir cfg = .ok out) ↔
      On (cfg "PRECIP_ONLY") ∨ ∀ n ∈ metFiles, ∃ s, cfg n = some (.str s) := by
  constructor
  · rintro ⟨out, h⟩
    obtain ⟨-, -, h3⟩ := C274_met_partial year dir cfg out h
    by_cases ho : On (cfg "PRECIP_ONLY")
    · exact Or.inl ho
    · right
      intro n hn
      obtain ⟨s, hs, -⟩ := h3 n hn ho
      exact ⟨s, hs⟩
  · intro h
    obtain ⟨v, hv, ht⟩ := precip_only year cfg
    unfold metStart
    simp only [hv]
    by_cases hon : truthy v = true
    · rw [if_pos hon]; exact ⟨_, rfl⟩
    · rw [if_neg hon]
      rcases h with h | h
      · exact absurd (ht.2 h) hon
      · obtain ⟨b, e, -, -⟩ := joinNames_ok dir metNames (setMissing (metMissing year) cfg)
          (by decide +kernel) (by
            intro n hn
            rw [metNames_eq] at hn
            obtain ⟨s, hs⟩ := h n hn
            exact ⟨s, setMissing_given _ _ _ _ hs⟩)
        exact ⟨b, e⟩

/-- **C274 is violated** (meteorology): a configuration file written before surface temperature and albedo could
be saved stops the start, although the switches for saving them get their default "off". -/
theorem C274_met_violated (year : ℚ) (dir : String) (cfg : Attrs) (hp : ¬ On (cfg "PRECIP_ONLY"))
    (n : String) (hn : n ∈ metFiles) (hm : cfg n = none) :
    ∀ out, metStart year dir cfg ≠ .ok out := by
  intro out h
  rcases (C274_met_start_iff year dir cfg).1 ⟨out, h⟩ with h | h
  · exact hp h
  · obtain ⟨s, hs⟩ := h n hn
    rw [hm] at hs
    cases hs

/-- The example files of the repository have names for the first five outputs; they start for precipitation only
and not otherwise. -/
def example67 (precipOnly : Bool) : Attrs := fun n =>
  if n = "PRECIP_ONLY" then some (.bool precipOnly)
  else if n ∈ ["ea_gs_file", "es_gs_file", "Qsw_gs_file", "Qlw_gs_file", "ema_gs_file", "ea_ts_file",
    "es_ts_file", "Qsw_ts_file", "Qlw_ts_file", "ema_ts_file"] then some (.str "x.nc")
  else none

example : (match metStart 2026 "/out/" (example67 true) with | .ok a => a "T_rain_snow" | .error _ => none) =
      some (.num 1) ∧
    (match metStart 2026 "/out/" (example67 false) with | .ok _ => "ok" | .error e => e) =
      "AttributeError" := by decide +kernel

/-- **C274** (driver). -/
theorem C274_driver (home : String) (cfg : Attrs) :
    Completed (DefaultsSpec.driver home) [] cfg (driverStart home cfg) :=
  setMissing_completed (driverMissing home) _ (by simp [driverMissing])
    (fun x => by simp [DefaultsSpec.driver, driverMissing]) cfg

example : driverStart "/home/u" (fun n => if n = "CREATE_INDICATORS" then some (.bool true) else none)
      "CREATE_INDICATORS" = some (.bool true) ∧
    driverStart "/home/u" (fun _ => none) "media_directory" = some (.str "/home/u/media/") := by
  decide +kernel

/-- **C274** (snow and glacier).  A reference temperature of the cold content that is given is kept; a missing
one is 0 with the degree-day method and the melting temperature `T0` otherwise; nothing else changes. -/
theorem C274_cold_content (degreeDay : Bool) (cfg : Attrs) (t : Val) (h0 : cfg "T0" = some t) :
    ∃ out, coldStart degreeDay cfg = .ok out ∧
      (∀ v, cfg "T0_cc" = some v → out "T0_cc" = some v) ∧
      (cfg "T0_cc" = none → out "T0_cc" = some (if degreeDay then .num 0 else t)) ∧
      ∀ n, n ≠ "T0_cc" → out n = cfg n := by
  rcases hc : cfg "T0_cc" with _ | v
  · cases degreeDay
    · refine ⟨put cfg "T0_cc" t, by simp [coldStart, hc, h0], by simp, by simp [put], ?_⟩
      intro n hn; simp [put, hn]
    · refine ⟨put cfg "T0_cc" (.num 0), by simp [coldStart, orElse, hc, put], by simp, by simp [put], ?_⟩
      intro n hn; simp [put, hn]
  · refine ⟨cfg, ?_, by intro w hw; rw [hc]; exact hw, by simp, fun _ _ => rfl⟩
    cases degreeDay <;> simp [coldStart, orElse, hc]

example : (match coldStart true (fun n => if n = "T0" then some (.num 2) else none) with
    | .ok a => a "T0_cc" | .error _ => none) = some (.num 0) := by decide +kernel

theorem setAll_not_mem : ∀ (l : List (String × Val)) (a : Attrs) (n : String), n ∉ l.map Prod.fst →
    setAll l a n = a n := by
  intro l
  induction l with
  | nil => intro a n _; rfl
  | cons r l ih =>
    obtain ⟨m, w⟩ := r
    intro a n hn
    simp only [List.map_cons, List.mem_cons, not_or] at hn
    rw [setAll, ih _ n hn.2]
    simp [put, hn.1]

theorem setAll_mem : ∀ (l : List (String × Val)) (a : Attrs) (n : String) (v : Val),
    (l.map Prod.fst).Nodup → (n, v) ∈ l → setAll l a n = some v := by
  intro l
  induction l with
  | nil => intro a n v _ h; cases h
  | cons r l ih =>
    obtain ⟨m, w⟩ := r
    intro a n v hd hm
    rw [List.map_cons, List.nodup_cons] at hd
    rw [setAll]
    rcases List.mem_cons.1 hm with he | he
    · injection he with h1 h2
      subst h1 h2
      rw [setAll_not_mem _ _ _ hd.1]
      simp [put]
    · exact ih _ n v hd.2 he

/-- **C274** (infiltration).  Missing: the four switches below for the methods other than Richards'.  What is
given is kept and what is missing gets its default; the entries left out are computed by the component. -/
theorem C274_infil_partial (richards : Bool) (cfg : Attrs) :
    Completed DefaultsSpec.infil
      (if richards then ["RICHARDS", "G_file", "gam_file", "G_type", "gam_type"]
        else ["RICHARDS", "SAVE_Q0_GRIDS", "SAVE_ZW_GRIDS", "SAVE_Q0_PIXELS", "SAVE_ZW_PIXELS"])
      cfg (infilStart richards cfg) := by
  have hex : (if richards then ["RICHARDS", "G_file", "gam_file", "G_type", "gam_type"]
        else ["RICHARDS", "SAVE_Q0_GRIDS", "SAVE_ZW_GRIDS", "SAVE_Q0_PIXELS", "SAVE_ZW_PIXELS"]) =
      (infilComputed richards).map Prod.fst := by
    cases richards <;> rfl
  rw [hex]
  have hR : "RICHARDS" ∈ (infilComputed richards).map Prod.fst := by
    cases richards <;> simp [infilComputed]
  have hmem : ∀ x, x ∈ DefaultsSpec.infil ↔ x ∈ infilDefaults := by
    intro x
    simp only [DefaultsSpec.infil, infilDefaults, List.map_cons, List.map_nil, List.mem_append, List.mem_cons,
      List.not_mem_nil, or_false]
    tauto
  refine ⟨?_, ?_, ?_⟩
  · intro n v hn h
    rw [infilStart, setAll_not_mem _ _ _ hn]
    simp [h]
  · intro n v hn h hm
    rw [infilStart, setAll_not_mem _ _ _ hn]
    simp only [h]
    exact setAll_mem _ _ n v (by decide +kernel) ((hmem _).1 hm)
  · intro n hn h hm
    rw [infilStart, setAll_not_mem _ _ _ hn]
    simp only [h]
    rw [setAll_not_mem]
    · have : n ≠ "RICHARDS" := fun he => hn (he ▸ hR)
      simp [put, this]
    · intro hc
      obtain ⟨x, hx, he⟩ := List.mem_map.1 hc
      exact hm (List.mem_map.2 ⟨x, (hmem x).2 hx, he⟩)

/-- **C274 is violated** (infiltration): the methods other than Richards' turn the output of soil moisture at the
surface and of the depth of the wetting front off, whatever the configuration file says. -/
theorem C274_infil_violated (cfg : Attrs) :
    ∀ n ∈ ["SAVE_Q0_GRIDS", "SAVE_ZW_GRIDS", "SAVE_Q0_PIXELS", "SAVE_ZW_PIXELS"],
      infilStart false cfg n = some (.bool false) := by
  intro n hn
  refine setAll_mem _ _ n _ (by decide +kernel) ?_
  simp only [infilComputed, Bool.false_eq_true, if_false]
  simp only [List.mem_cons, List.not_mem_nil, or_false] at hn
  rcases hn with rfl | rfl | rfl | rfl <;> simp

example : infilStart true (fun n => if n = "SAVE_Q0_GRIDS" then some (.bool true) else none)
      "SAVE_Q0_GRIDS" = some (.bool true) ∧
    infilStart false (fun n => if n = "SAVE_Q0_GRIDS" then some (.bool true) else none)
      "SAVE_Q0_GRIDS" = some (.bool false) := by decide +kernel

/-! ## C275 -/

theorem split_spec (t P T : ℚ) : Split t P T (split t P T).1 (split t P T).2 := by
  constructor
  · intro h; simp [split, h, not_le.2 h]
  · intro h; simp [split, h, not_lt.2 h]

theorem rainSnow_of (year : ℚ) (cfg : Attrs) (x : ℚ) (h : cfg "T_rain_snow" = some (.num x)) (P T : ℚ) :
    rainSnow year cfg P T = .ok (split x P T) := by
  rw [rainSnow, threshold, setMissing_given _ _ _ _ h]

theorem lower_iff (ty : String) : lower ty = "scalar" ↔ Scalar ty := by
  unfold lower Scalar
  constructor
  · intro h
    have := congrArg String.toList h
    rw [String.toList_ofList] at this
    rw [this]
    decide +kernel
  · intro h
    rw [h]

/-- **C275** (numbers).  With a threshold given as a number, precipitation is snow exactly where the air is not
warmer than it; without one the threshold is 1 degree. -/
theorem C275_number_partial (year P T : ℚ) :
    (∀ x : ℚ, ∀ ty, Scalar ty → ∃ rain snow,
      rainSnow year (readThreshold ty (.num x)) P T = .ok (rain, snow) ∧ Split x P T rain snow) ∧
    (∀ cfg : Attrs, cfg "T_rain_snow" = none → ∃ rain snow,
      rainSnow year cfg P T = .ok (rain, snow) ∧ Split 1 P T rain snow) := by
  constructor
  · intro x ty hty
    refine ⟨_, _, rainSnow_of year _ x ?_ P T, split_spec x P T⟩
    simp [readThreshold, (lower_iff ty).2 hty, put]
  · intro cfg h
    refine ⟨(split 1 P T).1, (split 1 P T).2, ?_, split_spec 1 P T⟩
    rw [rainSnow, threshold, setMissing_default _ _ "T_rain_snow" (.num 1) (metMissing_nodup year) h
      (by simp [metMissing])]

example : Scalar "Scalar" ∧ ¬ Scalar "Grid_Sequence" := by unfold Scalar; decide +kernel

/-- **C275 is violated** for thresholds from files, a documented choice: no file is read, and the threshold is 0
degrees whatever the file contains. -/
theorem C275_file_violated (year P T : ℚ) (ty file : String) (hty : ¬ Scalar ty) :
    ∃ rain snow, rainSnow year (readThreshold ty (.str file)) P T = .ok (rain, snow) ∧
      Split 0 P T rain snow := by
  refine ⟨_, _, rainSnow_of year _ 0 ?_ P T, split_spec 0 P T⟩
  simp [readThreshold, (lower_iff ty).not.2 hty, put]

/-- At half a degree, with a file of thresholds of 1 degree, all precipitation is rain instead of snow. -/
example : rainSnow 2026 (readThreshold "Grid" (.str "thresholds.rtg")) 3 (1 / 2) = .ok (3, 0) ∧
    ¬ Split 1 3 (1 / 2) 3 0 := by
  constructor
  · rw [rainSnow_of 2026 _ 0 (by simp [readThreshold]; decide +kernel)]
    norm_num [split]
  · intro h
    have := (h.2 (by norm_num)).1
    norm_num at this

end Defaults
