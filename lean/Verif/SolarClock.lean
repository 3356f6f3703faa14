import Mathlib.Data.Rat.Floor
import Verif.SolarRadiation
import Verif.TimeUtilsProps

/-!
# The day of the year (C71), the hour of the sun (C72) and the place of the cells (C73)
-/

set_option autoImplicit false

noncomputable section

namespace Solar

open Real TimeUtils

/-! ## C71: the day of the year -/

/-- **C71.**  In every year whose leap day follows the rule of four, the day of the year is the number of days since
1 January.  Missing from the full claim: the century years without a leap day (`C71_century_violated`). -/
theorem C71_day_of_year_partial (y m d : ℕ) (h : DateOk y m d) (hc : y % 100 ≠ 0 ∨ y % 400 = 0) :
    julianDay m d none (some y) = ((ymd2ord y m d : ℕ) : ℚ) - ((ymd2ord y 1 1 : ℕ) : ℚ) := by
  obtain ⟨h1, h2, h3, h4, h5, h6⟩ := h
  have key : ((monthDays (some y)).take m).sum + (d - 1) + ymd2ord y 1 1 = ymd2ord y m d := by
    by_cases hl : y % 4 = 0
    · have hL : isLeap y = true := (isLeap_iff y).2 ⟨hl, hc⟩
      simp only [monthDays, hl, ne_eq, not_true_eq_false, if_false, ymd2ord, hL]
      interval_cases m <;> simp [dbm] <;> omega
    · have hL : isLeap y = false := by
        rw [← Bool.not_eq_true, isLeap_iff]; tauto
      simp only [monthDays, hl, ne_eq, not_false_eq_true, if_true, ymd2ord, hL]
      interval_cases m <;> simp [dbm] <;> omega
  simp only [julianDay]
  rw [← key]
  push_cast
  ring

/-- In a century year that is not a leap year, every day from March on is counted one too high. -/
theorem C71_century_violated (y m d : ℕ) (h : DateOk y m d) (h100 : y % 100 = 0) (h400 : y % 400 ≠ 0)
    (hm : 3 ≤ m) :
    julianDay m d none (some y) = ((ymd2ord y m d : ℕ) : ℚ) - ((ymd2ord y 1 1 : ℕ) : ℚ) + 1 := by
  obtain ⟨h1, h2, h3, h4, h5, h6⟩ := h
  have key : ((monthDays (some y)).take m).sum + (d - 1) + ymd2ord y 1 1 = ymd2ord y m d + 1 := by
    have hl : y % 4 = 0 := by omega
    have hL : isLeap y = false := by
      rw [← Bool.not_eq_true, isLeap_iff]; tauto
    simp only [monthDays, hl, ne_eq, not_true_eq_false, if_false, ymd2ord, hL]
    interval_cases m <;> simp [dbm] <;> omega
  have key' : (((monthDays (some y)).take m).sum + (d - 1) + ymd2ord y 1 1 : ℚ) = ymd2ord y m d + 1 := by
    have := congrArg (Nat.cast (R := ℚ)) key
    rw [Nat.cast_add, Nat.cast_add, Nat.cast_sub h5, Nat.cast_add, Nat.cast_one] at this
    exact this
  have e : julianDay m d none (some y) = (((monthDays (some y)).take m).sum : ℕ) + ((d : ℚ) - 1) := by
    simp only [julianDay]
    rw [Nat.cast_add, Nat.cast_sub h5, Nat.cast_one]
  rw [e]
  linarith

example : DateOk 2100 3 1 ∧ 2100 % 100 = 0 ∧ 2100 % 400 ≠ 0 :=
  ⟨⟨by decide, by decide, by decide, by decide, by decide, by decide⟩, by decide, by decide⟩

/-- The hour is the fraction of the day. -/
theorem C71_hour (y : Option ℕ) (m d : ℕ) (x : ℚ) :
    julianDay m d (some x) y = julianDay m d none y + x / 24 := rfl

theorem julianDay_nat (m d : ℕ) (y : Option ℕ) : ∃ n : ℕ, julianDay m d none y = n := ⟨_, rfl⟩

/-- Without a year, a common year is assumed. -/
theorem C71_no_year (m d : ℕ) (x : Option ℚ) (y : ℕ) (hy : y % 4 ≠ 0) :
    julianDay m d x none = julianDay m d x (some y) := by
  simp only [julianDay, monthDays, hy, ne_eq, not_false_eq_true, if_true]

/-- The day of the year of a date and an hour of it lies between 0 and the number of days of the year. -/
theorem C71_range (y m d : ℕ) (h : DateOk y m d) (x : ℚ) (h0 : 0 ≤ x) (h1 : x < 24) :
    0 ≤ julianDay m d (some x) (some y) ∧
    julianDay m d (some x) (some y) < (if y % 4 = 0 then 366 else 365) := by
  obtain ⟨g1, g2, g3, g4, g5, g6⟩ := h
  have key : ((monthDays (some y)).take m).sum + (d - 1) + 1 ≤ (if y % 4 = 0 then 366 else 365) := by
    simp only [daysInMonth] at g6
    by_cases hl : y % 4 = 0
    · simp only [monthDays, hl, ne_eq, not_true_eq_false, if_false, if_true]
      generalize isLeap y = L at g6
      interval_cases m <;> cases L <;> simp at g6 ⊢ <;> omega
    · have hL : isLeap y = false := by
        rw [← Bool.not_eq_true, isLeap_iff]; tauto
      rw [hL] at g6
      simp only [monthDays, hl, ne_eq, not_false_eq_true, if_true, if_false]
      interval_cases m <;> simp at g6 ⊢ <;> omega
  have key' : (((((monthDays (some y)).take m).sum + (d - 1) : ℕ) : ℚ) + 1) ≤
      (if y % 4 = 0 then 366 else 365) := by
    have : ((((monthDays (some y)).take m).sum + (d - 1) + 1 : ℕ) : ℚ) ≤
        (((if y % 4 = 0 then 366 else 365 : ℕ)) : ℚ) := Nat.cast_le.2 key
    rw [Nat.cast_add, Nat.cast_one] at this
    refine this.trans (le_of_eq ?_)
    split_ifs <;> norm_num
  have hn : (0 : ℚ) ≤ ((((monthDays (some y)).take m).sum + (d - 1) : ℕ) : ℚ) := Nat.cast_nonneg _
  simp only [julianDay]
  constructor
  · have : 0 ≤ x / 24 := by positivity
    linarith
  · have : x / 24 < 1 := by linarith
    linarith

/-- Later dates of a year have later days: the order of dates and hours is kept. -/
theorem C71_increasing (y m d m' d' : ℕ) (h : DateOk y m d) (h' : DateOk y m' d') (x x' : ℚ)
    (hx : x < 24) (hx0 : 0 ≤ x')
    (hlt : m < m' ∨ m = m' ∧ d < d' ∨ m = m' ∧ d = d' ∧ x < x') :
    julianDay m d (some x) (some y) < julianDay m' d' (some x') (some y) := by
  rcases hlt with hlt | hlt
  · exact step y m d m' d' h h' x x' hx hx0 (Or.inl hlt)
  · rcases hlt with hlt | ⟨rfl, rfl, hlt⟩
    · exact step y m d m' d' h h' x x' hx hx0 (Or.inr hlt)
    · simp only [julianDay]; linarith
where
  step (y m d m' d' : ℕ) (h : DateOk y m d) (h' : DateOk y m' d') (x x' : ℚ)
      (hx : x < 24) (hx0 : 0 ≤ x') (hlt : m < m' ∨ m = m' ∧ d < d') :
      julianDay m d (some x) (some y) < julianDay m' d' (some x') (some y) := by
    obtain ⟨g1, g2, g3, g4, g5, g6⟩ := h
    obtain ⟨f1, f2, f3, f4, f5, f6⟩ := h'
    have key : ((monthDays (some y)).take m).sum + (d - 1) + 1 ≤
        ((monthDays (some y)).take m').sum + (d' - 1) := by
      rcases hlt with hlt | ⟨rfl, hlt⟩
      · have hmono : ((monthDays (some y)).take m).sum + d ≤ ((monthDays (some y)).take (m + 1)).sum := by
          simp only [daysInMonth] at g6
          by_cases hl : y % 4 = 0
          · simp only [monthDays, hl, ne_eq, not_true_eq_false, if_false]
            generalize isLeap y = L at g6
            interval_cases m <;> cases L <;> simp at g6 ⊢ <;> omega
          · have hL : isLeap y = false := by
              rw [← Bool.not_eq_true, isLeap_iff]; tauto
            rw [hL] at g6
            simp only [monthDays, hl, ne_eq, not_false_eq_true, if_true]
            interval_cases m <;> simp at g6 ⊢ <;> omega
        have hsub : ((monthDays (some y)).take (m + 1)).sum ≤ ((monthDays (some y)).take m').sum :=
          (List.take_sublist_take_left (by omega)).sum_le_sum (fun _ _ => Nat.zero_le _)
        omega
      · omega
    have key' : (((((monthDays (some y)).take m).sum + (d - 1) : ℕ) : ℚ) + 1) ≤
        ((((monthDays (some y)).take m').sum + (d' - 1) : ℕ) : ℚ) := by
      exact_mod_cast key
    simp only [julianDay]
    have h1 : x / 24 < 1 := by linarith
    have h2 : 0 ≤ x' / 24 := by positivity
    linarith

example : julianDay 12 31 (some 24) (some 2024) = 366 ∧ julianDay 2 1 (some 0) none = 31 ∧
    julianDay 1 1 (some 0) none = 0 := by
  refine ⟨?_, ?_, ?_⟩ <;> norm_num [julianDay, monthDays]

/-! ## C72: the clock of the met component -/

theorem parseNat_dot (w r : Text) : parseNat (w ++ '.' :: r) = .error "ValueError" := by
  rw [parseNat, if_neg]
  rintro ⟨_, h⟩
  rw [List.all_eq_true] at h
  exact absurd (h '.' (by simp)) (by decide)

theorem splitDatetime_whole (t : DT) (hs : t.us % 1000000 = 0) :
    splitDatetime t = .ok ((t.year, t.month, t.day),
      (t.us / 3600000000, t.us / 1000000 / 60 % 60, t.us / 1000000 % 60)) := by
  have hsp : ' ' ∉ pad t.year 4 ++ '-' :: (pad t.month 2 ++ '-' :: pad t.day 2) := by
    have h1 := notMem_of_digits (isDigit_pad t.year 4) ' ' (by decide)
    have h2 := notMem_of_digits (isDigit_pad t.month 2) ' ' (by decide)
    have h3 := notMem_of_digits (isDigit_pad t.day 2) ' ' (by decide)
    simp [h1, h2, h3]
  have hsp2 : ' ' ∉ pad (t.us / 1000000 / 3600) 2 ++ ':' :: (pad (t.us / 1000000 / 60 % 60) 2 ++
      ':' :: pad (t.us / 1000000 % 60) 2) := by
    have h1 := notMem_of_digits (isDigit_pad (t.us / 1000000 / 3600) 2) ' ' (by decide)
    have h2 := notMem_of_digits (isDigit_pad (t.us / 1000000 / 60 % 60) 2) ' ' (by decide)
    have h3 := notMem_of_digits (isDigit_pad (t.us / 1000000 % 60) 2) ' ' (by decide)
    simp [h1, h2, h3]
  have e : t.us / 3600000000 = t.us / 1000000 / 3600 := by omega
  rw [e]
  simp only [splitDatetime, strDT_whole t hs, splitOn_cons ' ' _ _ hsp, splitOn_end ' ' _ hsp2,
    threeNumbers_pads '-' (by decide) _ t.year t.month t.day 2 2 (parseNat_pad _ _) (isDigit_pad _ _),
    threeNumbers_pads ':' (by decide) _ (t.us / 1000000 / 3600) (t.us / 1000000 / 60 % 60)
      (t.us / 1000000 % 60) 2 2 (parseNat_pad _ _) (isDigit_pad _ _)]

theorem splitDatetime_fraction (t : DT) (hs : t.us % 1000000 ≠ 0) :
    splitDatetime t = .error "ValueError" := by
  have hsp : ' ' ∉ pad t.year 4 ++ '-' :: (pad t.month 2 ++ '-' :: pad t.day 2) := by
    have h1 := notMem_of_digits (isDigit_pad t.year 4) ' ' (by decide)
    have h2 := notMem_of_digits (isDigit_pad t.month 2) ' ' (by decide)
    have h3 := notMem_of_digits (isDigit_pad t.day 2) ' ' (by decide)
    simp [h1, h2, h3]
  have hsp2 : ' ' ∉ pad (t.us / 1000000 / 3600) 2 ++ ':' :: (pad (t.us / 1000000 / 60 % 60) 2 ++
      ':' :: (pad (t.us / 1000000 % 60) 2 ++ '.' :: pad (t.us % 1000000) 6)) := by
    have h1 := notMem_of_digits (isDigit_pad (t.us / 1000000 / 3600) 2) ' ' (by decide)
    have h2 := notMem_of_digits (isDigit_pad (t.us / 1000000 / 60 % 60) 2) ' ' (by decide)
    have h3 := notMem_of_digits (isDigit_pad (t.us / 1000000 % 60) 2) ' ' (by decide)
    have h4 := notMem_of_digits (isDigit_pad (t.us % 1000000) 6) ' ' (by decide)
    simp [h1, h2, h3, h4]
  have hc : ':' ∉ pad (t.us / 1000000 % 60) 2 ++ '.' :: pad (t.us % 1000000) 6 := by
    have h3 := notMem_of_digits (isDigit_pad (t.us / 1000000 % 60) 2) ':' (by decide)
    have h4 := notMem_of_digits (isDigit_pad (t.us % 1000000) 6) ':' (by decide)
    simp [h3, h4]
  have estr : strDT t = (pad t.year 4 ++ '-' :: (pad t.month 2 ++ '-' :: pad t.day 2)) ++
      ' ' :: (pad (t.us / 1000000 / 3600) 2 ++ ':' :: (pad (t.us / 1000000 / 60 % 60) 2 ++
      ':' :: (pad (t.us / 1000000 % 60) 2 ++ '.' :: pad (t.us % 1000000) 6))) := by
    simp [strDT, hs]
  have h3 : threeNumbers ':' (pad (t.us / 1000000 / 3600) 2 ++ ':' :: (pad (t.us / 1000000 / 60 % 60) 2 ++
      ':' :: (pad (t.us / 1000000 % 60) 2 ++ '.' :: pad (t.us % 1000000) 6))) = .error "ValueError" := by
    simp only [threeNumbers,
      splitOn_cons ':' _ _ (notMem_of_digits (isDigit_pad (t.us / 1000000 / 3600) 2) ':' (by decide)),
      splitOn_cons ':' _ _ (notMem_of_digits (isDigit_pad (t.us / 1000000 / 60 % 60) 2) ':' (by decide)),
      splitOn_end ':' _ hc, parseNat_pad, parseNat_dot]
  simp only [splitDatetime, estr, splitOn_cons ' ' _ _ hsp, splitOn_end ' ' _ hsp2,
    threeNumbers_pads '-' (by decide) _ t.year t.month t.day 2 2 (parseNat_pad _ _) (isDigit_pad _ _), h3]

theorem fromTimeSince_minutes (o t : DT) (ht : t.Ok) (us : ℤ) (hk : t.abs = o.abs + us) :
    fromTimeSince o ((us : ℚ) / 60000000) "minutes" = .ok t := by
  have key := addUs_diff o t ht
  have hd : t.abs - o.abs = us := by omega
  simp only [fromTimeSince, String.reduceEq, if_false, if_true]
  rw [← key]
  congr 1
  refine Eq.trans ?_ (roundUs_intCast (t.abs - o.abs))
  rw [hd]
  congr 1
  ring

/-- The start of a run, `us` microseconds and the moment `t` after it. -/
structure Moment (y m d h : ℕ) (us : ℤ) (t : DT) : Prop where
  start : DateOk y m d
  hour : h < 24
  ok : t.Ok
  after : t.abs = (⟨y, m, d, h * 3600000000⟩ : DT).abs + us

theorem start_str (y m d h : ℕ) (hs : DateOk y m d) (hh : h < 24) :
    fromOneStr (datetimeStr y m d h 0 0) = .ok ⟨y, m, d, h * 3600000000⟩ := by
  rw [C63_datetime_str, mkDT, if_pos ⟨hs.1, hs.2, hs.3, hs.4, hs.5, hs.6, hh, by omega, by omega⟩]
  have e : ((h * 60 + 0) * 60 + 0) * 1000000 = h * 3600000000 := by ring
  rw [e]

/-- **C72.**  At every whole second of a run the met component works with the year and the day of the year of the
current moment of the calendar, taken at the full hour.  Missing from the full claim: the minutes of the hour
(`C72_minutes_violated`) and moments with a fraction of a second (`C72_fraction_violated`). -/
theorem C72_calendar_partial (y m d h : ℕ) (us : ℤ) (t : DT) (hm : Moment y m d h us t)
    (hus : us % 1000000 = 0) :
    currentDay (datetimeStr y m d h 0 0) ((us : ℚ) / 60000000) =
      .ok (t.year, julianDay t.month t.day (some ((t.us / 3600000000 : ℕ) : ℚ)) (some t.year)) := by
  have hts : t.us % 1000000 = 0 := by
    have := hm.after
    have hd' : ((dayUs : ℕ) : ℤ) = 86400000000 := rfl
    simp only [DT.abs, hd'] at this
    push_cast at this
    omega
  simp only [currentDay, start_str y m d h hm.start hm.hour, fromTimeSince_minutes _ t hm.ok us hm.after,
    splitDatetime_whole t hts]

/-- Two moments of the same clock hour get the same day of the year and the same hour of the sun, so that the sun
stands still for an hour at a time. -/
theorem C72_minutes_violated (now y m d h : ℕ) (us us' : ℤ) (t t' : DT) (lon : ℝ) (gmt : ℤ)
    (hm : Moment y m d h us t) (hm' : Moment y m d h us' t') (hus : us % 1000000 = 0) (hus' : us' % 1000000 = 0)
    (hdate : t.year = t'.year ∧ t.month = t'.month ∧ t.day = t'.day)
    (hhour : t.us / 3600000000 = t'.us / 3600000000) :
    updateJulianDay now (datetimeStr y m d h 0 0) lon gmt ((us : ℚ) / 60000000) =
    updateJulianDay now (datetimeStr y m d h 0 0) lon gmt ((us' : ℚ) / 60000000) := by
  simp only [updateJulianDay, C72_calendar_partial y m d h us t hm hus,
    C72_calendar_partial y m d h us' t' hm' hus', hdate, hhour]

/-- Such moments exist: one o'clock and a minute to two. -/
example : Moment 2020 6 1 0 3600000000 ⟨2020, 6, 1, 3600000000⟩ ∧
    Moment 2020 6 1 0 7140000000 ⟨2020, 6, 1, 7140000000⟩ ∧
    (3600000000 : ℕ) / 3600000000 = 7140000000 / 3600000000 := by
  refine ⟨⟨⟨by decide, by decide, by decide, by decide, by decide, by decide⟩, by decide,
    ⟨⟨by decide, by decide, by decide, by decide, by decide, by decide⟩, by norm_num⟩, ?_⟩,
    ⟨⟨by decide, by decide, by decide, by decide, by decide, by decide⟩, by decide,
    ⟨⟨by decide, by decide, by decide, by decide, by decide, by decide⟩, by norm_num⟩, ?_⟩, by norm_num⟩
  · simp [DT.abs]
  · simp [DT.abs]

/-- At a moment with a fraction of a second the update ends with an exception. -/
theorem C72_fraction_violated (now y m d h : ℕ) (us : ℤ) (t : DT) (lon : ℝ) (gmt : ℤ) (hm : Moment y m d h us t)
    (hus : us % 1000000 ≠ 0) :
    updateJulianDay now (datetimeStr y m d h 0 0) lon gmt ((us : ℚ) / 60000000) = .error "ValueError" := by
  have hts : t.us % 1000000 ≠ 0 := by
    have := hm.after
    have hd' : ((dayUs : ℕ) : ℤ) = 86400000000 := rfl
    simp only [DT.abs, hd'] at this
    push_cast at this
    omega
  simp only [updateJulianDay, currentDay, start_str y m d h hm.start hm.hour,
    fromTimeSince_minutes _ t hm.ok us hm.after, splitDatetime_fraction t hts]

theorem clockHour_eq (m d h : ℕ) (hh : h < 24) (y : Option ℕ) :
    (julianDay m d (some (h : ℚ)) y - (⌊julianDay m d (some (h : ℚ)) y⌋ : ℚ)) * 24 = h := by
  obtain ⟨n, hn⟩ := julianDay_nat m d y
  have hlt : (h : ℚ) < 24 := by exact_mod_cast hh
  have h0 : (0 : ℚ) ≤ h := Nat.cast_nonneg _
  have hf : ⌊julianDay m d (some (h : ℚ)) y⌋ = n := by
    rw [C71_hour, hn, Int.floor_eq_iff]
    push_cast
    constructor <;> linarith
  rw [hf, C71_hour, hn]
  push_cast
  ring

/-- **C72, the hour of the sun.**  The hours since true solar noon are the clock hour, minus twelve, plus one hour for
every 15 degrees that the site lies east of the central meridian of its time zone, minus the equation of time. -/
theorem C72_hour_of_sun (now y m d h : ℕ) (us : ℤ) (t : DT) (lon : ℝ) (gmt : ℤ) (hm : Moment y m d h us t)
    (hus : us % 1000000 = 0) (TE : ℝ)
    (hTE : equationOfTime now
      ((julianDay t.month t.day (some ((t.us / 3600000000 : ℕ) : ℚ)) (some t.year) : ℚ) : ℝ) t.year = .ok TE) :
    updateJulianDay now (datetimeStr y m d h 0 0) lon gmt ((us : ℚ) / 60000000) =
      .ok (t.year, julianDay t.month t.day (some ((t.us / 3600000000 : ℕ) : ℚ)) (some t.year),
        ((t.us / 3600000000 : ℕ) : ℝ) - 12 + (lon - 15 * gmt) / 15 - TE) := by
  have hh : t.us / 3600000000 < 24 := by have := hm.ok.us_lt; omega
  have hc := clockHour_eq t.month t.day (t.us / 3600000000) hh (some t.year)
  simp only [updateJulianDay, C72_calendar_partial y m d h us t hm hus, trueSolarNoon, hTE, hc]
  congr 3
  push_cast
  ring

/-- The table of perihelia covers the years 1981 to 2060; for other years the current year is used. -/
theorem C72_equation_defined (now year : ℕ) (J : ℝ) :
    (1981 ≤ year ∧ year ≤ 2060 → ∃ TE, equationOfTime now J year = .ok TE) ∧
    (1981 ≤ now ∧ now ≤ 2060 → ∃ TE, equationOfTime now J year = .ok TE) ∧
    (¬ (1981 ≤ year ∧ year ≤ 2060) → ¬ (1981 ≤ now ∧ now ≤ 2060) →
      equationOfTime now J year = .error "KeyError") := by
  have hlen : perihelionTable.length = 80 := by decide
  have hin : ∀ k, 1981 ≤ k ∧ k ≤ 2060 → ∃ p, perihelionTable[k - 1981]? = some p := by
    intro k hk
    exact ⟨_, List.getElem?_eq_getElem (by omega : k - 1981 < perihelionTable.length)⟩
  refine ⟨?_, ?_, ?_⟩
  · intro hy
    obtain ⟨p, hp⟩ := hin year hy
    simp only [equationOfTime, perihelion]
    rw [if_neg (by omega : ¬ (year < 1981 ∨ 2060 < year)), if_neg (by omega), hp]
    exact ⟨_, rfl⟩
  · intro hn
    by_cases hy : year < 1981 ∨ 2060 < year
    · obtain ⟨p, hp⟩ := hin now hn
      simp only [equationOfTime, perihelion]
      rw [if_pos hy, if_neg (by omega), hp]
      exact ⟨_, rfl⟩
    · obtain ⟨p, hp⟩ := hin year (by omega)
      simp only [equationOfTime, perihelion]
      rw [if_neg hy, if_neg (by omega), hp]
      exact ⟨_, rfl⟩
  · intro hy hn
    simp only [equationOfTime, perihelion]
    rw [if_pos (by omega : year < 1981 ∨ 2060 < year)]
    by_cases h : now < 1981
    · rw [if_pos h]
    · rw [if_neg h, List.getElem?_eq_none (by omega)]

/-- The equation of time is less than 18 minutes, on every day of every year. -/
theorem C72_equation_bound (now year : ℕ) (J TE : ℝ) (h : equationOfTime now J year = .ok TE) :
    |TE| < 18 / 60 := by
  simp only [equationOfTime] at h
  split at h
  · cases h
  · rename_i Tp _
    injection h with h
    rw [← h]
    simp only [eotFormula]
    generalize pyMod ((2 * π / daysPerYear) * (J - (Tp : ℝ)) + 2 * π) (2 * π) = M
    generalize 2 * (M + 2 * π * ((365 + (Tp : ℝ) - vernalEquinox year) / daysPerYear)) = L2
    have p1 := pi_gt_d2
    have p2 := pi_lt_d2
    have hp : 0 < 2 * π / 24 := by linarith
    have s1 := neg_one_le_sin M
    have s2 := sin_le_one M
    have s3 := neg_one_le_sin L2
    have s4 := sin_le_one L2
    have t1 : (tilt / 2) ^ 2 ≤ 0.0421 := by
      unfold tilt
      have : 0 ≤ 23.4397 * (π / 180) / 2 := by positivity
      nlinarith
    have t0 : 0 ≤ (tilt / 2) ^ 2 := sq_nonneg _
    rw [abs_div, abs_of_pos hp, div_lt_iff₀ hp, abs_lt]
    unfold orbitEccentricity
    constructor <;> nlinarith

/-- Although the date of the vernal equinox is counted from the year 2000, the equation of time depends on the year
only through the date of the perihelion. -/
theorem C72_equation_year (J Tp : ℝ) (year year' : ℕ) : eotFormula J year Tp = eotFormula J year' Tp := by
  simp only [eotFormula]
  have hd : daysPerYear ≠ 0 := by unfold daysPerYear; norm_num
  generalize pyMod ((2 * π / daysPerYear) * (J - Tp) + 2 * π) (2 * π) = M
  have e : 2 * (M + 2 * π * ((365 + Tp - vernalEquinox year) / daysPerYear)) =
      2 * (M + 2 * π * ((365 + Tp - vernalEquinox year') / daysPerYear)) +
        ((2 * ((year' : ℤ) - year) : ℤ) : ℝ) * (2 * π) := by
    unfold vernalEquinox
    push_cast
    field_simp
    ring
  rw [e, sin_add_int_mul_two_pi]

/-- The classical formula for the equation of time: the mean anomaly `M` and the mean longitude `L` of the sun advance
by a full turn per year from the perihelion, and `L - M` is the angle from the equinox of the year 2000 to the
perihelion. -/
theorem C72_equation_formula (J Tp : ℝ) (year : ℕ) :
    let M := 2 * π * (J - Tp) / 365.2425
    let L := M + 2 * π * (365 + Tp - 79.3125) / 365.2425
    eotFormula J year Tp * (2 * π / 24) =
      -2 * 0.016713 * sin M + (23.4397 * π / 360) ^ 2 * sin (2 * L) := by
  intro M L
  rw [C72_equation_year J Tp year 2000]
  have hp := pi_pos
  have hd : daysPerYear = 365.2425 := rfl
  have hM : pyMod ((2 * π / daysPerYear) * (J - Tp) + 2 * π) (2 * π) =
      M - ((⌊M / (2 * π)⌋ : ℤ) : ℝ) * (2 * π) := by
    rw [add_comm, pyMod_add_self (by linarith), hd]
    have : 2 * π / 365.2425 * (J - Tp) = M := by simp only [M]; ring
    rw [this, pyMod]
    ring
  simp only [eotFormula, hM]
  rw [div_mul_cancel₀ _ (by positivity), sin_sub_int_mul_two_pi]
  have eL : 2 * (M - ((⌊M / (2 * π)⌋ : ℤ) : ℝ) * (2 * π) +
      2 * π * ((365 + Tp - vernalEquinox 2000) / daysPerYear)) =
      2 * L - ((2 * ⌊M / (2 * π)⌋ : ℤ) : ℝ) * (2 * π) := by
    have : vernalEquinox 2000 = 79.3125 := by unfold vernalEquinox; push_cast; ring
    rw [this, hd]
    simp only [L]
    push_cast
    ring
  rw [eL, sin_sub_int_mul_two_pi]
  unfold orbitEccentricity tilt
  ring

/-- A site is dark to the model whenever its hours since solar noon fall to -12 or below, or to 12 or above, although
the sun is up: the hours are not brought back to the range of a day. -/
theorem C72_wrap_violated (lat J Wp th α β albedo dust : ℝ) (h : th ≤ -12 ∨ 12 ≤ th) :
    clearSky lat J Wp th α β albedo dust = 0 ∧ etFlux lat J (th + 24) = etFlux lat J th := by
  have hd := C68_day_length lat J
  constructor
  · apply (C69_night lat J Wp th α β albedo dust _).1
    rcases h with h | h
    · left; rw [hd.1]; linarith [hd.2.2.1]
    · right; left; linarith [hd.2.2.1]
  · rw [C68_flux, C68_flux, sunHeight_eq, sunHeight_eq]
    have : omega * (th + 24) = omega * th + 2 * π := by rw [omega_eq]; ring
    rw [this, cos_add_two_pi]

/-- With a clock of time zone 0, a site at the equator at 150 degrees west has its sun up at one o'clock, on every day
of the year and whatever the equation of time, and its radiation is zero. -/
theorem C72_wrap_witness_violated (J Wp albedo dust TE : ℝ) (hTE : |TE| < 18 / 60) :
    let th := (1 : ℝ) - 12 + (-150 - 15 * 0) / 15 - TE
    0 < sunHeight 0 J th ∧ clearSky 0 J Wp th 0 0 albedo dust = 0 := by
  intro th
  have hb := abs_lt.1 hTE
  have hth : th = -21 - TE := by simp only [th]; ring
  have hd := C68_day_length 0 J
  have h12 := C68_equator J
  constructor
  · have e : sunHeight 0 J th = sunHeight 0 J (th + 24) := by
      rw [sunHeight_eq, sunHeight_eq]
      have : omega * (th + 24) = omega * th + 2 * π := by rw [omega_eq]; ring
      rw [this, cos_add_two_pi]
    rw [e, C68_sun_up 0 J (th + 24) (by norm_num) (by rw [hth, abs_lt]; constructor <;> linarith), hd.1, hth]
    constructor <;> linarith [hd.2.2.2]
  · exact (C72_wrap_violated 0 J Wp th 0 0 albedo dust (Or.inl (by rw [hth]; linarith))).1

/-! ## C73: the place of the cells -/

/-- **C73.**  On a geographic grid every cell gets the latitude and the longitude of its centre: row 0 is the
northernmost, half a cell below the north edge, and column 0 the westernmost.  Missing from the full claim: grids in
projected coordinates (`C73_projected_violated`). -/
theorem C73_centres_partial (g : Info) (hg : g.geographic = true) (i j : ℕ) (hi : i < g.nrows) :
    latitude g i = (g.yS + g.nrows * (g.yres / 3600)) - (i + 1 / 2) * (g.yres / 3600) ∧
    longitude g j = g.xW + (j + 1 / 2) * (g.xres / 3600) := by
  have e : ((g.nrows - 1 - i : ℕ) : ℝ) = (g.nrows : ℝ) - 1 - i := by
    rw [Nat.sub_sub, Nat.cast_sub (by omega)]
    push_cast
    ring
  simp only [latitude, longitude, hg, if_true, e]
  constructor <;> ring

/-- The centres lie inside the bounding box, and neighbours are one cell apart. -/
theorem C73_inside (g : Info) (hg : g.geographic = true) (i j : ℕ) (hi : i < g.nrows) (hj : j < g.ncols)
    (hx : 0 < g.xres) (hy : 0 < g.yres) :
    g.yS < latitude g i ∧ latitude g i < g.yS + g.nrows * (g.yres / 3600) ∧
    g.xW < longitude g j ∧ longitude g j < g.xW + g.ncols * (g.xres / 3600) ∧
    longitude g (j + 1) - longitude g j = g.xres / 3600 ∧
    (i + 1 < g.nrows → latitude g i - latitude g (i + 1) = g.yres / 3600) := by
  have h := C73_centres_partial g hg i j hi
  have h' := C73_centres_partial g hg i (j + 1) hi
  have hi' : (i : ℝ) + 1 ≤ g.nrows := by exact_mod_cast hi
  have hj' : (j : ℝ) + 1 ≤ g.ncols := by exact_mod_cast hj
  have hi0 : (0 : ℝ) ≤ i := Nat.cast_nonneg _
  have hj0 : (0 : ℝ) ≤ j := Nat.cast_nonneg _
  have dx : 0 < g.xres / 3600 := by positivity
  have dy : 0 < g.yres / 3600 := by positivity
  rw [h.1, h.2, h'.2]
  refine ⟨by nlinarith, by nlinarith, by nlinarith, by nlinarith, by push_cast; ring, ?_⟩
  intro hi1
  rw [(C73_centres_partial g hg (i + 1) j hi1).1]
  push_cast
  ring

/-- On a grid in projected coordinates every cell is at the same place, that of Denver, wherever the grid is. -/
theorem C73_projected_violated (g : Info) (hg : g.geographic = false) (i j : ℕ) :
    latitude g i = 39.7391667 ∧ longitude g j = -104.9841667 := by
  simp [latitude, longitude, hg]

example : latitude ⟨true, 44, 29, 3, 3, 38.3, -78.4⟩ 0 = 38.3 + 44 * (3 / 3600) - 1 / 2 * (3 / 3600) := by
  rw [(C73_centres_partial _ rfl 0 0 (by norm_num)).1]; norm_num

end Solar
