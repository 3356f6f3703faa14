import Verif.FinalReportModel
import Verif.DriverProps
import Verif.TableProps

/-!
# C276: what the final report states
-/

set_option autoImplicit false

namespace FinalReportSpec

open FinalReport (Final Shown Line)

/-- Kinds of quantities. -/
inductive Dim
  | discharge | speed | length | duration | volume | area | number
  deriving DecidableEq

/-- The meaning of the units: kind of quantity and size in m, s, m^3/s, m^3, km^2. -/
def meaning : String → Option (Dim × ℚ)
  | "[m^3/s]" => some (.discharge, 1)
  | "[m/s]" => some (.speed, 1)
  | "[m]" => some (.length, 1)
  | "[sec]" => some (.duration, 1)
  | "[min]" => some (.duration, 60)
  | "[m^3]" => some (.volume, 1)
  | "x 10^6 [m^3]" => some (.volume, 1000000)
  | "[km^2]" => some (.area, 1)
  | "" => some (.number, 1)
  | _ => none

/-- The number `x` is what a reader gets from the digits, and half a unit of the last digit. -/
def Reads : Shown → ℚ → ℚ → Prop
  | .fix k q, x, eps => Table.parseReal (Table.fmtFix k q) = .ok x ∧ eps = 1 / 2 / 10 ^ k
  | .full q, x, eps => x = q ∧ eps = 0

/-- A quantity that belongs into the report: its label, its kind and its values (times in seconds). -/
structure Row where
  label : String
  dim : Dim
  values : List ℚ

/-- The line states the quantity: the unit is one of its kind, and the digits give the values within half a
unit of the last digit. -/
def States (row : Row) (l : Line) : Prop :=
  l.label = row.label ∧ ∃ scale, meaning l.unit = some (row.dim, scale) ∧
    List.Forall₂ (fun v s => ∃ x eps, Reads s x eps ∧ |x * scale - v| ≤ eps * scale) row.values l.shown

/-- What the report is to contain, line by line. -/
def rows (r : Final) : List Row :=
  [⟨"Simulated time:", .duration, [r.timeMin * 60]⟩, ⟨"Program run time:", .duration, [r.elapsed]⟩,
    ⟨"Number of timesteps:", .number, [r.nSteps]⟩, ⟨"Number of columns:", .number, [r.nx]⟩,
    ⟨"Number of rows:", .number, [r.ny]⟩, ⟨"Basin area:", .area, [r.basinArea]⟩] ++
  (match r.nval with
    | none => []
    | some (a, b) => [⟨"Min Manning's n:", .number, [a]⟩, ⟨"Max Manning's n:", .number, [b]⟩]) ++
  (match r.z0val with
    | none => []
    | some (a, b) => [⟨"Min z0 value:", .length, [a]⟩, ⟨"Max z0 value:", .length, [b]⟩]) ++
  [⟨"Q_outlet (final):", .discharge, [r.Qoutlet]⟩, ⟨"Q_peak:", .discharge, [r.Qpeak]⟩,
    ⟨"Q_peak_time:", .duration, [r.Tpeak * 60]⟩, ⟨"u_peak:", .speed, [r.upeak]⟩,
    ⟨"u_peak_time:", .duration, [r.Tupeak * 60]⟩, ⟨"d_peak:", .length, [r.dpeak]⟩,
    ⟨"d_peak_time:", .duration, [r.Tdpeak * 60]⟩,
    ⟨"Min(Q), Max(Q):", .discharge, [r.Qmin, r.Qmax]⟩, ⟨"Min(u), Max(u):", .speed, [r.umin, r.umax]⟩,
    ⟨"Min(d), Max(d):", .length, [r.dmin, r.dmax]⟩] ++
  ([("vol_P    (precip):", r.volP), ("vol_PR   (rainfall):", r.volPR), ("vol_edge (boundary):", r.volEdge),
    ("vol_ET   (evaporation):", r.volET), ("vol_Rg   (recharge):", r.volRg), ("vol_SM   (snowmelt):", r.volSM),
    ("vol_IM   (icemelt):", r.volMR), ("vol_GW   (baseflow):", r.volGW), ("vol_R    (surface flow):", r.volR),
    ("vol_PS   (snowfall):", r.volPS), ("vol_IN   (infiltration):", r.volIN),
    ("vol_R_i  (runoff gain):", r.volPR + r.volSM + r.volMR + r.volGW),
    ("vol_R_o  (runoff loss):", r.volET + r.volIN), ("vol_Q    (discharge):", r.volQ),
    ("vol_soil_start  (subsurface):", r.soil0), ("vol_chan_start  (channels):", r.chan0),
    ("vol_flood_start (surface):", 0), ("vol_swe_start   (snowpack):", r.swe0),
    ("vol_start       (total):", r.soil0 + r.chan0 + r.swe0), ("vol_soil_final  (subsurface):", r.soil),
    ("vol_chan_final  (channels):", r.chan), ("vol_flood_final (surface):", r.flood),
    ("vol_swe_final   (snowpack):", r.swe), ("vol_final       (total):", r.soil + r.chan + r.flood + r.swe),
    ("vol_change      (total):", r.soil + r.chan + r.flood + r.swe - (r.soil0 + r.chan0 + r.swe0)),
    ("volume in         =", r.volP), ("volume out        =", r.volET + r.volEdge),
    ("change in storage =", r.soil + r.chan + r.flood + r.swe - (r.soil0 + r.chan0 + r.swe0)),
    ("volume error      =", r.volP - (r.volET + r.volEdge) -
      (r.soil + r.chan + r.flood + r.swe - (r.soil0 + r.chan0 + r.swe0)))].map
    fun p => ⟨p.1, .volume, [p.2]⟩)

end FinalReportSpec

namespace FinalReport

open FinalReportSpec

theorem states_full (label unit : String) (d : Dim) (v q scale : ℚ) (hm : meaning unit = some (d, scale))
    (h : q * scale = v) : States ⟨label, d, [v]⟩ ⟨label, [.full q], unit⟩ := by
  refine ⟨rfl, scale, hm, .cons ⟨q, 0, ⟨rfl, rfl⟩, ?_⟩ .nil⟩
  rw [h]
  simp

theorem reads_fix (k : ℕ) (hk : k ≠ 0) (v q scale : ℚ) (hs : 0 < scale) (h : q * scale = v) :
    ∃ x eps, Reads (.fix k q) x eps ∧ |x * scale - v| ≤ eps * scale := by
  refine ⟨Table.printed k q, _, ⟨Table.parseReal_fix k hk q, rfl⟩, ?_⟩
  rw [← h, ← sub_mul, abs_mul, abs_of_pos hs]
  exact mul_le_mul_of_nonneg_right (Table.printed_close k q) hs.le

theorem states_fix (label unit : String) (d : Dim) (k : ℕ) (hk : k ≠ 0) (v q scale : ℚ) (hs : 0 < scale)
    (hm : meaning unit = some (d, scale)) (h : q * scale = v) :
    States ⟨label, d, [v]⟩ ⟨label, [.fix k q], unit⟩ :=
  ⟨rfl, scale, hm, .cons (reads_fix k hk v q scale hs h) .nil⟩

theorem states_vol (label : String) (v w : ℚ) (h : v = w) :
    States ⟨label, .volume, [v]⟩ (volLine label w) := by
  subst h
  unfold volLine volStr
  split
  · exact states_full _ _ _ _ _ 1 rfl (by ring)
  · exact states_full _ _ _ _ _ 1000000 rfl (by ring)

theorem states_two (label unit : String) (d : Dim) (v w : ℚ) (hm : meaning unit = some (d, 1)) :
    States ⟨label, d, [v, w]⟩ ⟨label, [.fix 7 v, .fix 7 w], unit⟩ :=
  ⟨rfl, 1, hm, .cons (reads_fix 7 (by omega) v v 1 one_pos (by ring))
    (.cons (reads_fix 7 (by omega) w w 1 one_pos (by ring)) .nil)⟩

/-- **C276.**  Missing: the lines for peak velocity, peak depth and simulated time, see below.  Every quantity of
the list has one line in the report, in this order, and apart from these three the line states it: the unit is of
the right kind, and the digits give the value within half a unit of the last digit. -/
theorem C276_report_partial (r : Final) :
    List.Forall₂ (fun row l => l.label = row.label ∧
      (row.label ∈ ["u_peak:", "d_peak:", "Simulated time:"] ∨ States row l)) (rows r) (report r) := by
  have ok : ∀ {row : Row} {l : Line}, States row l → l.label = row.label ∧
      (row.label ∈ ["u_peak:", "d_peak:", "Simulated time:"] ∨ States row l) := fun h => ⟨h.1, Or.inr h⟩
  unfold rows report basicInfo peakInfo minsMaxes fluxVolumes storageVolumes massBalance
  simp only [List.append_assoc]
  refine List.rel_append ?_ (List.rel_append ?_ (List.rel_append ?_ ?_))
  · refine .cons ⟨rfl, Or.inl (by simp)⟩ (.cons (ok ?_) (.cons (ok ?_) (.cons (ok ?_) (.cons (ok ?_)
      (.cons (ok ?_) .nil)))))
    · split
      · exact states_fix _ _ _ 4 (by omega) _ _ 60 (by norm_num) rfl (by ring)
      · exact states_fix _ _ _ 4 (by omega) _ _ 1 (by norm_num) rfl (by ring)
    · exact states_full _ _ _ _ _ 1 rfl (by ring)
    · exact states_full _ _ _ _ _ 1 rfl (by ring)
    · exact states_full _ _ _ _ _ 1 rfl (by ring)
    · exact states_full _ _ _ _ _ 1 rfl (by ring)
  · rcases r.nval with _ | ⟨a, b⟩
    · exact .nil
    · exact .cons (ok (states_fix _ _ _ 7 (by omega) _ _ 1 one_pos rfl (by ring)))
        (.cons (ok (states_fix _ _ _ 7 (by omega) _ _ 1 one_pos rfl (by ring))) .nil)
  · rcases r.z0val with _ | ⟨a, b⟩
    · exact .nil
    · exact .cons (ok (states_fix _ _ _ 7 (by omega) _ _ 1 one_pos rfl (by ring)))
        (.cons (ok (states_fix _ _ _ 7 (by omega) _ _ 1 one_pos rfl (by ring))) .nil)
  · refine .cons (ok (states_fix _ _ _ 7 (by omega) _ _ 1 one_pos rfl (by ring))) (.cons
      (ok (states_fix _ _ _ 7 (by omega) _ _ 1 one_pos rfl (by ring))) (.cons
      (ok (states_fix _ _ _ 7 (by omega) _ _ 60 (by norm_num) rfl (by ring))) (.cons ⟨rfl, Or.inl (by simp)⟩ (.cons
      (ok (states_fix _ _ _ 7 (by omega) _ _ 60 (by norm_num) rfl (by ring))) (.cons ⟨rfl, Or.inl (by simp)⟩ (.cons
      (ok (states_fix _ _ _ 7 (by omega) _ _ 60 (by norm_num) rfl (by ring))) (.cons
      (ok (states_two _ _ _ _ _ rfl)) (.cons (ok (states_two _ _ _ _ _ rfl)) (.cons
      (ok (states_two _ _ _ _ _ rfl)) ?_)))))))))
    simp only [List.map_cons, List.map_nil, List.nil_append, List.cons_append, Driver.storedChange,
      Driver.volError, vols]
    repeat' first | exact .nil | refine .cons (ok (states_vol _ _ _ (by ring))) ?_

/-- The lines with the two labels. -/
theorem peak_lines (r : Final) : ∀ l ∈ report r, l.label = "u_peak:" ∨ l.label = "d_peak:" →
    l.unit = "[m^3/s]" := by
  rcases h1 : r.nval with _ | ⟨a, b⟩ <;> rcases h2 : r.z0val with _ | ⟨c, d⟩ <;>
    simp [report, basicInfo, minsMaxes, fluxVolumes, storageVolumes, massBalance, peakInfo, volLine, h1, h2]

/-- The line with the simulated time. -/
theorem time_lines (r : Final) : ∀ l ∈ report r, l.label = "Simulated time:" →
    l = ⟨"Simulated time:", [.full (if r.method = "Until_model_time" then r.Tstop else r.timeMin)], "[min]"⟩ := by
  rcases h1 : r.nval with _ | ⟨a, b⟩ <;> rcases h2 : r.z0val with _ | ⟨c, d⟩ <;>
    simp [report, basicInfo, minsMaxes, fluxVolumes, storageVolumes, massBalance, peakInfo, volLine, h1, h2]

/-- **C276 is violated** for the peaks of velocity and depth: in every report both are stated as discharges, so
that no line states them. -/
theorem C276_peaks_violated (r : Final) :
    (∀ l ∈ report r, ¬ States ⟨"u_peak:", .speed, [r.upeak]⟩ l) ∧
    (∀ l ∈ report r, ¬ States ⟨"d_peak:", .length, [r.dpeak]⟩ l) := by
  constructor <;>
  · rintro l hl ⟨h1, scale, h2, -⟩
    rw [peak_lines r l hl (by simp [h1])] at h2
    simp [meaning] at h2

/-- What the driver knows after a run of the model of its stopping rules. -/
def ofDriver (d : Driver.Drv ℚ) (r : Final) : Final :=
  { r with method := d.method, Tstop := d.Tstop, timeMin := d.timeMin, nSteps := d.timeIndex }

theorem time_iff (r : Final) :
    (∃ l ∈ report r, States ⟨"Simulated time:", .duration, [r.timeMin * 60]⟩ l) ↔
      (r.method = "Until_model_time" → r.Tstop = r.timeMin) := by
  constructor
  · rintro ⟨l, hl, hs⟩ hm
    rw [time_lines r l hl hs.1, if_pos hm] at hs
    obtain ⟨-, scale, h2, h3⟩ := hs
    have hs : scale = 60 := by simpa [meaning, eq_comm] using h2
    subst hs
    cases h3 with
    | cons h _ =>
      obtain ⟨x, eps, ⟨rfl, rfl⟩, h⟩ := h
      rw [zero_mul, abs_nonpos_iff] at h
      linarith
  · intro h
    refine ⟨⟨"Simulated time:", [.full (if r.method = "Until_model_time" then r.Tstop else r.timeMin)], "[min]"⟩,
      by simp [report, basicInfo], states_full _ _ _ _ _ 60 rfl ?_⟩
    split
    · rename_i hm; rw [h hm]
    · rfl

/-- **C276** (simulated time).  Missing: runs up to a given model time.  With the other stopping methods the
report states the time simulated. -/
theorem C276_time_partial (r : Final) (hm : r.method ≠ "Until_model_time") :
    ∃ l ∈ report r, States ⟨"Simulated time:", .duration, [r.timeMin * 60]⟩ l :=
  (time_iff r).2 fun h => absurd h hm

/-- **C276** (simulated time).  A run up to the model time `T` (in minutes), not ended from outside, makes `n`
updates of length `dt` (in seconds); the report states the time `n * dt` exactly if `T` is a positive multiple of
the time step. -/
theorem C276_model_time_iff (r : Final) (Q Qp : ℕ → ℚ) (d0 : Driver.Drv ℚ) (hm : d0.method = "Until_model_time")
    (hdt : 0 < d0.dt) :
    ∃ (n : ℕ) (d : Driver.Drv ℚ),
      (∀ fuel ≥ n, Driver.run Q Qp fuel 0 (Driver.init d0 (Q 0)) = some (.ok (d, n))) ∧
      d.time = n * d0.dt ∧
      ((∃ l ∈ report (ofDriver d r), States ⟨"Simulated time:", .duration, [n * d0.dt]⟩ l) ↔
        ∃ m : ℕ, 1 ≤ m ∧ d0.TstopModel * 60 = m * d0.dt) := by
  have e1 : ¬ ("Until_model_time" = "Q_peak_fraction") := by decide
  have e2 : ¬ ("Until_model_time" = "Until_n_steps") := by decide
  have key : ∀ m : ℕ, Driver.StopAt d0 Q Qp m ↔ ⌈60 * d0.TstopModel / d0.dt⌉ ≤ (m : ℤ) := by
    intro m
    simp only [Driver.StopAt, hm, e1, e2, false_and, false_or, or_false, true_and]
    rw [Int.ceil_le, Int.cast_natCast, div_le_iff₀ hdt, le_div_iff₀ (by norm_num : (0 : ℚ) < 60),
      mul_comm]
  set n := max 1 ⌈60 * d0.TstopModel / d0.dt⌉.toNat with hn
  obtain ⟨d, ha, hr⟩ := Driver.run_stops (Or.inr (Or.inl hm)) ((key n).2 (by omega)) (n - 1) 0
    (Driver.init d0 (Q 0)) (by omega) (fun m h1 h2 => by rw [key]; omega) (Driver.at_init d0 Q) rfl
  refine ⟨n, d, fun fuel hf => hr fuel (by omega), ha.time, ?_⟩
  have hT : d.Tstop = d0.TstopModel := by
    rw [ha.Tstop]; simp [Driver.init, hm, e1]
  have h60 : (n : ℚ) * d0.dt = (ofDriver d r).timeMin * 60 := by
    show _ = d.timeMin * 60
    rw [ha.timeMin]; ring
  rw [h60, time_iff]
  have hmm : (ofDriver d r).method = "Until_model_time" := by
    show d.method = _
    rw [ha.method, hm]
  have e3 : ((ofDriver d r).Tstop = (ofDriver d r).timeMin) ↔ d0.TstopModel * 60 = n * d0.dt := by
    rw [h60]
    show d.Tstop = d.timeMin ↔ d0.TstopModel * 60 = d.timeMin * 60
    rw [hT]
    constructor
    · intro h; rw [h]
    · intro h; linarith
  constructor
  · intro h
    exact ⟨n, by omega, e3.1 (h hmm)⟩
  · rintro ⟨m, h1, h2⟩ -
    have : 60 * d0.TstopModel / d0.dt = ((m : ℤ) : ℚ) := by
      rw [div_eq_iff hdt.ne', mul_comm 60, h2, Int.cast_natCast]
    have hnm : n = m := by
      rw [hn, this, Int.ceil_intCast]
      omega
    rw [e3, hnm, h2]

/-- **C276 is violated** (simulated time): with ten minutes as the stopping time and a time step of seven minutes,
the time that was simulated is not stated. -/
theorem C276_time_violated (r : Final) (Q Qp : ℕ → ℚ) (d0 : Driver.Drv ℚ) (hm : d0.method = "Until_model_time")
    (hT : d0.TstopModel = 10) (hdt : d0.dt = 420) :
    ∃ (n : ℕ) (d : Driver.Drv ℚ),
      (∀ fuel ≥ n, Driver.run Q Qp fuel 0 (Driver.init d0 (Q 0)) = some (.ok (d, n))) ∧
      d.time = n * d0.dt ∧
      ¬ ∃ l ∈ report (ofDriver d r), States ⟨"Simulated time:", .duration, [n * d0.dt]⟩ l := by
  obtain ⟨n, d, h1, h2, h3⟩ := C276_model_time_iff r Q Qp d0 hm (by rw [hdt]; norm_num)
  refine ⟨n, d, h1, h2, ?_⟩
  rw [h3, hT, hdt]
  rintro ⟨m, -, h⟩
  have h : 600 = m * 420 := by exact_mod_cast (by linarith : (600 : ℚ) = m * 420)
  omega

/-- The line for 12345678.9 m^3 of rain, and the line for 2 m^3. -/
example : volLine "vol_PR   (rainfall):" 12345678.9 = ⟨"vol_PR   (rainfall):", [.full 12.3456789], "x 10^6 [m^3]"⟩ ∧
    volLine "vol_PR   (rainfall):" 2 = ⟨"vol_PR   (rainfall):", [.full 2], "[m^3]"⟩ := by
  constructor <;> norm_num [volLine, volStr]

end FinalReport
