import Verif.TimeInfoModel
import Verif.TimeUtilsProps
import Verif.CfgProps

/-!
# Properties of the period of a run (C90, C91)

The specification: a datetime of the Gregorian calendar (`Civil`), the texts that write it, the order of the calendar,
and the number of seconds between two datetimes, counted second by second through `DT.abs`, which the order theorem
ties to the calendar.
-/

set_option autoImplicit false

namespace TimeInfo

open TimeUtils

/-- A datetime of the calendar in whole seconds. -/
structure Civil (t : DT) : Prop where
  ok : t.Ok
  whole : t.us % 1000000 = 0

/-- `YYYY-MM-DD`. -/
def dateText (t : DT) : Text := pad t.year 4 ++ '-' :: (pad t.month 2 ++ '-' :: pad t.day 2)

/-- `HH:MM:SS`. -/
def timeText (t : DT) : Text :=
  pad (t.us / 1000000 / 3600) 2 ++ ':' :: (pad (t.us / 1000000 / 60 % 60) 2 ++ ':' :: pad (t.us / 1000000 % 60) 2)

example : dateText ⟨2015, 10, 1, 1805000000⟩ = "2015-10-01".toList := by decide +kernel
example : timeText ⟨2015, 10, 1, 1805000000⟩ = "00:30:05".toList := by decide +kernel

/-- Earlier in the calendar: by year, then month, then day, then time of day. -/
def Before (a b : DT) : Prop :=
  a.year < b.year ∨ (a.year = b.year ∧ (a.month < b.month ∨ (a.month = b.month ∧
    (a.day < b.day ∨ (a.day = b.day ∧ a.us < b.us)))))

/-! ## The calendar -/

theorem dby_succ (y : ℕ) (h : 1 ≤ y) :
    daysBeforeYear (y + 1) = daysBeforeYear y + 365 + (if isLeap y = true then 1 else 0) := by
  obtain ⟨a, b, c, e, hb, hc, he, rfl⟩ :
      ∃ a b c e, b < 4 ∧ c < 25 ∧ e < 4 ∧ y = 400 * a + 100 * b + 4 * c + e + 1 :=
    ⟨(y - 1) / 400, (y - 1) % 400 / 100, (y - 1) % 100 / 4, (y - 1) % 4, by omega, by omega,
      by omega, by omega⟩
  have h1 : daysBeforeYear (400 * a + 100 * b + 4 * c + e + 1)
      = 146097 * a + 36524 * b + 1461 * c + 365 * e := by
    simp only [daysBeforeYear]; omega
  have h2 : isLeap (400 * a + 100 * b + 4 * c + e + 1) = true ↔ e = 3 ∧ (c ≠ 24 ∨ b = 3) := by
    rw [isLeap_iff]; omega
  rw [h1, if_congr h2 rfl rfl]
  simp only [daysBeforeYear]
  split_ifs <;> omega

theorem dby_mono (a b : ℕ) (h1 : 1 ≤ a) (h : a ≤ b) : daysBeforeYear a ≤ daysBeforeYear b := by
  induction b, h using Nat.le_induction with
  | base => exact le_refl _
  | succ n hn ih =>
    have := dby_succ n (by omega)
    omega

theorem ord_in_year (y m d : ℕ) (h : DateOk y m d) :
    daysBeforeYear y < ymd2ord y m d ∧
    ymd2ord y m d ≤ daysBeforeYear y + 365 + (if isLeap y = true then 1 else 0) := by
  obtain ⟨h1, h2, h3, h4, h5, h6⟩ := h
  by_cases hl : isLeap y = true <;>
  · simp only [ymd2ord, daysInMonth, hl] at *
    interval_cases m <;> simp [dbm] at * <;> omega

theorem ord_in_month (y m d m' d' : ℕ) (h : DateOk y m d) (h' : DateOk y m' d') (hm : m < m') :
    ymd2ord y m d < ymd2ord y m' d' := by
  obtain ⟨h1, h2, h3, h4, h5, h6⟩ := h
  obtain ⟨-, -, h3', h4', h5', h6'⟩ := h'
  by_cases hl : isLeap y = true <;>
  · simp only [ymd2ord, daysInMonth, hl] at *
    interval_cases m' <;> interval_cases m <;> simp [dbm] at * <;> omega

theorem abs_lt_of_before (a b : DT) (ha : a.Ok) (hb : b.Ok) (h : Before a b) : a.abs < b.abs := by
  obtain ⟨da, ua⟩ := ha
  obtain ⟨db, ub⟩ := hb
  have hu : (a.us : ℤ) < 86400000000 := by have : a.us < dayUs := ua; simp only [dayUs] at this; omega
  have key : ymd2ord a.year a.month a.day < ymd2ord b.year b.month b.day → a.abs < b.abs := by
    intro hlt
    simp only [DT.abs, dayUs]; omega
  rcases h with h | ⟨hy, h | ⟨hm, h | ⟨hd, h⟩⟩⟩
  · apply key
    have e1 := (ord_in_year _ _ _ da).2
    have e2 := (ord_in_year _ _ _ db).1
    have e3 := dby_succ a.year da.year_pos
    have e4 := dby_mono (a.year + 1) b.year (by omega) h
    omega
  · apply key
    rw [← hy] at db ⊢
    exact ord_in_month _ _ _ _ _ da db h
  · apply key
    rw [← hy, ← hm]
    simp only [ymd2ord]; omega
  · simp only [DT.abs, hy, hm, hd, dayUs]; omega

theorem before_trichotomy (a b : DT) : Before a b ∨ a = b ∨ Before b a := by
  obtain ⟨y, m, d, u⟩ := a
  obtain ⟨y', m', d', u'⟩ := b
  simp only [Before, DT.mk.injEq]
  omega

/-- The count of microseconds orders datetimes as the calendar does. -/
theorem abs_lt_iff (a b : DT) (ha : a.Ok) (hb : b.Ok) : a.abs < b.abs ↔ Before a b := by
  constructor
  · intro h
    rcases before_trichotomy a b with h1 | rfl | h1
    · exact h1
    · omega
    · have := abs_lt_of_before b a hb ha h1; omega
  · exact abs_lt_of_before a b ha hb

/-! ## Reading the texts -/

theorem endPoint_text (y m d h mi s k : ℕ) :
    endPoint (pad y k ++ '-' :: (pad m 2 ++ '-' :: pad d 2)) (pad h 2 ++ ':' :: (pad mi 2 ++ ':' :: pad s 2))
      = mkDT y m d h mi s := by
  simp only [endPoint, threeNumbers_pads '-' (by decide) _ y m d 2 2 (parseNat_pad _ _) (isDigit_pad _ _),
    threeNumbers_pads ':' (by decide) _ h mi s 2 2 (parseNat_pad _ _) (isDigit_pad _ _)]

theorem mkDT_civil (t : DT) (ht : Civil t) :
    mkDT t.year t.month t.day (t.us / 1000000 / 3600) (t.us / 1000000 / 60 % 60) (t.us / 1000000 % 60) = .ok t := by
  obtain ⟨⟨⟨hy1, hy2, hm1, hm2, hd1, hd2⟩, hu⟩, hs⟩ := ht
  have hu' : t.us < 86400000000 := hu
  rw [mkDT, if_pos]
  · congr 1
    have : ((t.us / 1000000 / 3600 * 60 + t.us / 1000000 / 60 % 60) * 60 + t.us / 1000000 % 60)
        * 1000000 = t.us := by omega
    rw [this]
  · exact ⟨hy1, hy2, hm1, hm2, hd1, hd2, by omega, by omega, by omega⟩

theorem endPoint_civil (t : DT) (ht : Civil t) : endPoint (dateText t) (timeText t) = .ok t := by
  rw [dateText, timeText, endPoint_text, mkDT_civil t ht]

theorem fromOneStr_civil (t : DT) (ht : Civil t) : fromOneStr (dateText t ++ ' ' :: timeText t) = .ok t := by
  rw [dateText, timeText, fromOneStr_pads _ _ _ _ _ _ _ (parseNat_pad _ _) (isDigit_pad _ _), mkDT_civil t ht]

/-- The length of the period as `get_duration` gives it to a user who passes the texts of two datetimes. -/
def durationOf (a b : DT) (units : String) : Except String ℚ :=
  getDuration (some (dateText a)) (some (timeText a)) (some (dateText b)) (some (timeText b)) (some units)

theorem durationOf_eq (a b : DT) (ha : Civil a) (hb : Civil b) (units : String) :
    durationOf a b units =
      (let secs : ℚ := ((b.abs - a.abs : ℤ) : ℚ) / 1000000
       if units = "seconds" then .ok secs
       else if units = "minutes" then .ok (secs / 60)
       else if units = "hours" then .ok (secs / 3600)
       else if units = "days" then .ok (secs / 86400)
       else if units = "months" then .ok (monthDifference a b : ℤ)
       else if units = "years" then .ok (secs / 31536000)
       else .ok (secs / 3600)) := by
  simp only [durationOf, getDuration, Option.getD_some, endPoint_civil a ha, endPoint_civil b hb]

/-! ## C90 -/

/-- **C90** (round trip).  For every two datetimes of the calendar in whole seconds, the duration between their texts
in seconds, minutes, hours or days, added to the start, gives the end. -/
theorem C90_start_plus_duration (a b : DT) (ha : Civil a) (hb : Civil b) (units : String)
    (hu : units ∈ ["seconds", "minutes", "hours", "days"]) :
    ∃ d, durationOf a b units = .ok d ∧ getCurrentDatetime (dateText a ++ ' ' :: timeText a) d units = .ok b := by
  have key := addUs_diff a b hb.ok
  rw [durationOf_eq a b ha hb]
  simp only [List.mem_cons, List.not_mem_nil, or_false] at hu
  rcases hu with rfl | rfl | rfl | rfl <;>
  · simp only [String.reduceEq, if_false, if_true]
    refine ⟨_, rfl, ?_⟩
    simp only [getCurrentDatetime, fromOneStr_civil a ha, fromTimeSince, String.reduceEq, if_false, if_true]
    rw [← key, show ∀ x : ℚ, x = ((b.abs - a.abs : ℤ) : ℚ) → addUs a (roundUs x) = addUs a (b.abs - a.abs) from
      fun x hx => by rw [hx, roundUs_intCast]]
    ring

/-- **C90** (units).  The duration in minutes, hours and days is the duration in seconds divided by 60, 3600 and 86400;
in years, by 365 days.  Any other word is taken as hours. -/
theorem C90_units (a b : DT) (ha : Civil a) (hb : Civil b) :
    ∃ s : ℤ, durationOf a b "seconds" = .ok (s : ℚ) ∧ durationOf a b "minutes" = .ok ((s : ℚ) / 60) ∧
      durationOf a b "hours" = .ok ((s : ℚ) / 3600) ∧ durationOf a b "days" = .ok ((s : ℚ) / 86400) ∧
      durationOf a b "years" = .ok ((s : ℚ) / (365 * 86400)) ∧
      ∀ u, u ∉ ["seconds", "minutes", "hours", "days", "months", "years"] →
        durationOf a b u = .ok ((s : ℚ) / 3600) := by
  have h1 := ha.whole
  have h2 := hb.whole
  obtain ⟨s, hs⟩ : ∃ s : ℤ, b.abs - a.abs = s * 1000000 := by
    refine ⟨(b.abs - a.abs) / 1000000, ?_⟩
    simp only [DT.abs, dayUs]; omega
  have e : ((b.abs - a.abs : ℤ) : ℚ) / 1000000 = s := by
    rw [hs]; push_cast; ring
  refine ⟨s, ?_, ?_, ?_, ?_, ?_, ?_⟩
  iterate 4
    · rw [durationOf_eq a b ha hb]
      simp only [e, String.reduceEq, if_false, if_true]
  · rw [durationOf_eq a b ha hb]
    simp only [e, String.reduceEq, if_false, if_true]
    norm_num
  · intro u hu
    simp only [List.mem_cons, List.not_mem_nil, or_false, not_or] at hu
    obtain ⟨n1, n2, n3, n4, n5, n6⟩ := hu
    rw [durationOf_eq a b ha hb]
    simp only [e, n1, n2, n3, n4, n5, n6, if_false]

/-- **C90** (order).  In every unit but months, the duration is positive exactly when the end is later in the calendar,
zero exactly when both are the same. -/
theorem C90_sign (a b : DT) (ha : Civil a) (hb : Civil b) (units : String) (hu : units ≠ "months") :
    ∃ d, durationOf a b units = .ok d ∧ (0 < d ↔ Before a b) ∧ (d = 0 ↔ a = b) := by
  have hpos : ∀ k : ℚ, 0 < k →
      (0 < ((b.abs - a.abs : ℤ) : ℚ) / 1000000 / k ↔ Before a b) ∧
      (((b.abs - a.abs : ℤ) : ℚ) / 1000000 / k = 0 ↔ a = b) := by
    intro k hk
    rw [← abs_lt_iff a b ha.ok hb.ok]
    constructor
    · rw [div_pos_iff_of_pos_right hk, div_pos_iff_of_pos_right (by norm_num), Int.cast_pos]
      omega
    · rw [div_eq_zero_iff, div_eq_zero_iff, Int.cast_eq_zero]
      constructor
      · intro h
        have h0 : b.abs - a.abs = 0 := by
          rcases h with (h | h) | h
          · exact h
          · norm_num at h
          · exact absurd h hk.ne'
        rcases before_trichotomy a b with h1 | h1 | h1
        · have := abs_lt_of_before a b ha.ok hb.ok h1; omega
        · exact h1
        · have := abs_lt_of_before b a hb.ok ha.ok h1; omega
      · rintro rfl
        simp
  rw [durationOf_eq a b ha hb]
  simp only
  split_ifs with h1 h2 h3 h4 h6
  · refine ⟨_, rfl, ?_⟩
    have := hpos 1 (by norm_num)
    simpa using this
  · exact ⟨_, rfl, hpos _ (by norm_num)⟩
  · exact ⟨_, rfl, hpos _ (by norm_num)⟩
  · exact ⟨_, rfl, hpos _ (by norm_num)⟩
  · exact ⟨_, rfl, hpos _ (by norm_num)⟩
  · exact ⟨_, rfl, hpos _ (by norm_num)⟩

/-- **C90** (consecutive periods).  In every unit, the durations of two consecutive periods add up to the duration of
the whole, whatever the order of the datetimes. -/
theorem C90_additive (a b c : DT) (ha : Civil a) (hb : Civil b) (hc : Civil c) (units : String) :
    ∃ x y, durationOf a b units = .ok x ∧ durationOf b c units = .ok y ∧ durationOf a c units = .ok (x + y) := by
  rw [durationOf_eq a b ha hb, durationOf_eq b c hb hc, durationOf_eq a c ha hc]
  simp only
  split_ifs
  all_goals
    refine ⟨_, _, rfl, rfl, ?_⟩
    congr 1
    try simp only [monthDifference]
    push_cast
    ring

/-- **C90** (months).  The duration in months counts the turns of the month: moving the start by it gives a datetime in
the year and month of the end. -/
theorem C90_months (a b : DT) (ha : Civil a) (hb : Civil b) :
    ∃ k : ℤ, durationOf a b "months" = .ok (k : ℚ) ∧ k = (b.year * 12 + b.month : ℤ) - (a.year * 12 + a.month) ∧
      ∃ t, getCurrentDatetime (dateText a ++ ' ' :: timeText a) k "months" = .ok t ∧
        t.year = b.year ∧ t.month = b.month ∧ (b.day = a.day → b.us = a.us → t = b) := by
  refine ⟨monthDifference a b, ?_, ?_, ?_⟩
  · rw [durationOf_eq a b ha hb]
    simp only [String.reduceEq, if_false, if_true]
  · simp only [monthDifference]; omega
  · obtain ⟨t, h1, h2, h3, h4⟩ := C42_month_inverse a b ha.ok hb.ok
    refine ⟨t, ?_, h2, h3, h4⟩
    simp only [getCurrentDatetime, fromOneStr_civil a ha]
    exact h1

/-- **C90** (one year).  From any New Year to the next, the duration is 1 year in an ordinary year and 366/365 of a year
in a leap year; in days it is 365 or 366, in months 12. -/
theorem C90_one_year (y : ℕ) (h1 : 1 ≤ y) (h2 : y < 9999) :
    durationOf ⟨y, 1, 1, 0⟩ ⟨y + 1, 1, 1, 0⟩ "months" = .ok 12 ∧
    durationOf ⟨y, 1, 1, 0⟩ ⟨y + 1, 1, 1, 0⟩ "days" = .ok (if isLeap y = true then 366 else 365) ∧
    durationOf ⟨y, 1, 1, 0⟩ ⟨y + 1, 1, 1, 0⟩ "years" = .ok (if isLeap y = true then 366 / 365 else 1) := by
  have civ : ∀ y, 1 ≤ y → y ≤ 9999 → Civil ⟨y, 1, 1, 0⟩ := by
    intro y h1 h2
    refine ⟨⟨⟨h1, h2, Nat.le_refl 1, by show 1 ≤ 12; omega, Nat.le_refl 1, ?_⟩, by simp⟩, rfl⟩
    simp [daysInMonth]
  have ca := civ y h1 (by omega)
  have cb := civ (y + 1) (by omega) (by omega)
  have hd : ((⟨y + 1, 1, 1, 0⟩ : DT).abs - (⟨y, 1, 1, 0⟩ : DT).abs)
      = (365 + (if isLeap y = true then 1 else 0)) * 86400000000 := by
    have e := dby_succ y h1
    simp only [DT.abs, ymd2ord, dayUs, e]
    by_cases hl : isLeap y = true
    · simp only [hl, if_true]; push_cast; simp; ring
    · simp only [hl]; push_cast; simp; ring
  refine ⟨?_, ?_, ?_⟩ <;> rw [durationOf_eq _ _ ca cb]
  · simp only [String.reduceEq, if_false, if_true, monthDifference]
    congr 1
    push_cast
    ring
  · simp only [String.reduceEq, if_false, if_true, hd]
    by_cases hl : isLeap y = true
    · simp only [hl, if_true]; norm_num
    · simp only [hl]; norm_num
  · simp only [String.reduceEq, if_false, if_true, hd]
    by_cases hl : isLeap y = true
    · simp only [hl, if_true]; norm_num
    · simp only [hl]; norm_num

/-- **C90** (dates that do not exist).  Numbers in the form of a date and a time are accepted exactly when they are a
datetime of the calendar; otherwise the call raises `ValueError`, whatever the rest of the arguments. -/
theorem C90_rejects (y m d h mi s : ℕ) (ed et : Text) (u : Option String)
    (hbad : ¬ (DateOk y m d ∧ h < 24 ∧ mi < 60 ∧ s < 60)) :
    getDuration (some (pad y 4 ++ '-' :: (pad m 2 ++ '-' :: pad d 2)))
      (some (pad h 2 ++ ':' :: (pad mi 2 ++ ':' :: pad s 2))) (some ed) (some et) u = .error "ValueError" := by
  simp only [getDuration, Option.getD_some, endPoint_text]
  rw [mkDT, if_neg]
  rintro ⟨a1, a2, a3, a4, a5, a6, a7⟩
  exact hbad ⟨⟨a1, a2, a3, a4, a5, a6⟩, a7⟩

/-- **C90** (accepted).  For two datetimes of the calendar the call succeeds in every unit, also with an unknown one. -/
theorem C90_accepts (a b : DT) (ha : Civil a) (hb : Civil b) (units : String) :
    ∃ d, durationOf a b units = .ok d := by
  rw [durationOf_eq a b ha hb]
  simp only
  split_ifs <;> exact ⟨_, rfl⟩

/-- **C90** (defaults).  Without arguments the period is the year 2014, in days. -/
theorem C90_defaults : getDuration none none none none none = .ok 365 := by decide +kernel

example : Civil ⟨2015, 10, 1, 1805000000⟩ := by
  refine ⟨⟨⟨by decide, by decide, by decide, by decide, by decide, by decide⟩, by decide⟩, by decide⟩
example : durationOf ⟨2016, 2, 28, 0⟩ ⟨2016, 3, 1, 3600000000⟩ "hours" = .ok 49 := by decide +kernel
example : durationOf ⟨2016, 1, 31, 0⟩ ⟨2016, 2, 1, 0⟩ "months" = .ok 1 := by decide +kernel
example : durationOf ⟨2016, 1, 31, 0⟩ ⟨2016, 2, 1, 0⟩ "weeks" = .ok 24 := by decide +kernel

/-! ## C91 -/

theorem set_ne (a : Text → Option Text) (n k : String) (v : Text) (h : k ≠ n) : set a n v k.toList = a k.toList := by
  rw [set, if_neg (fun e => h (String.toList_inj.1 e))]

theorem set_eq (a : Text → Option Text) (n : String) (v : Text) : set a n v n.toList = some v := by
  rw [set, if_pos rfl]

theorem readEntries_append (as : Text → Bool) (a : Text → Option Text) (l1 l2 : List Text) :
    readEntries as a (l1 ++ l2) =
      match readEntries as a l1 with
      | .error e => .error e
      | .ok a' => readEntries as a' l2 := by
  induction l1 generalizing a with
  | nil => rfl
  | cons l ls ih =>
    simp only [List.cons_append, readEntries]
    cases hp : Cfg.parseLine l with
    | none => exact ih a
    | some x =>
      obtain ⟨n, v, t⟩ := x
      simp only
      split_ifs
      · exact ih _
      · rfl

theorem readEntries_frame (as : Text → Bool) (a a' : Text → Option Text) (ls : List Text) (k : Text)
    (h : readEntries as a ls = .ok a') (hk : ∀ l ∈ ls, ∀ v t, ¬ Cfg.IsEntry l k v t) : a' k = a k := by
  induction ls generalizing a with
  | nil => simp only [readEntries] at h; injection h with h; rw [h]
  | cons l ls ih =>
    simp only [readEntries] at h
    cases hp : Cfg.parseLine l with
    | none =>
      rw [hp] at h
      exact ih a h (fun l' hl' => hk l' (by simp [hl']))
    | some x =>
      obtain ⟨n, v, t⟩ := x
      rw [hp] at h
      simp only at h
      split_ifs at h
      have e := ih _ h (fun l' hl' => hk l' (by simp [hl']))
      rw [e]
      have hne : k ≠ n := by
        rintro rfl
        exact hk l (by simp) v t ((Cfg.C75_format _ _ _ _).1 hp)
      simp [hne]

/-- A file gives `k` the value `v`: the last entry for `k` has that value. -/
def Gives (lines : List Text) (k : String) (v : Text) : Prop :=
  ∃ pre l post t, lines = pre ++ l :: post ∧ Cfg.IsEntry l k.toList v t ∧
    ∀ l' ∈ post, ∀ v' t', ¬ Cfg.IsEntry l' k.toList v' t'

theorem readEntries_gives (as : Text → Bool) (a a' : Text → Option Text) (ls : List Text) (k : String) (v : Text)
    (h : readEntries as a ls = .ok a') (hg : Gives ls k v) : a' k.toList = some v := by
  obtain ⟨pre, l, post, t, rfl, hl, hp⟩ := hg
  rw [readEntries_append] at h
  cases h1 : readEntries as a pre with
  | error e => rw [h1] at h; simp at h
  | ok a1 =>
    rw [h1] at h
    simp only [readEntries, (Cfg.C75_format _ _ _ _).2 hl] at h
    split_ifs at h
    rw [readEntries_frame as _ _ post k.toList h hp]
    simp

theorem readEntries_ok (as : Text → Bool) (a : Text → Option Text) (ls : List Text)
    (h : ∀ l ∈ ls, ∀ n v t, Cfg.IsEntry l n v t → as n = true) : ∃ a', readEntries as a ls = .ok a' := by
  induction ls generalizing a with
  | nil => exact ⟨a, rfl⟩
  | cons l ls ih =>
    simp only [readEntries]
    have h' := fun l' (hl' : l' ∈ ls) => h l' (by simp [hl'])
    cases hp : Cfg.parseLine l with
    | none => exact ih a h'
    | some x =>
      obtain ⟨n, v, t⟩ := x
      simp only
      rw [if_pos (h l (by simp) n v t ((Cfg.C75_format _ _ _ _).1 hp))]
      exact ih _ h'

theorem readTimeInfo_eq (as : Text → Bool) (lines : List Text) (a b : DT) (ha : Civil a) (hb : Civil b)
    (hn : ∀ l ∈ lines, ∀ n v t, Cfg.IsEntry l n v t → as n = true)
    (h1 : Gives lines "start_date" (dateText a)) (h2 : Gives lines "start_time" (timeText a))
    (h3 : Gives lines "end_date" (dateText b)) (h4 : Gives lines "end_time" (timeText b)) :
    ∃ at', readEntries as (fun _ => none) lines = .ok at' ∧
      at' "start_date".toList = some (dateText a) ∧ at' "start_time".toList = some (timeText a) ∧
      at' "end_date".toList = some (dateText b) ∧ at' "end_time".toList = some (timeText b) ∧
      readTimeInfo as (some lines) =
        .ok ⟨set (set (set at' "duration_units" "minutes".toList)
            "start_datetime" (dateText a ++ ' ' :: timeText a)) "end_datetime" (dateText b ++ ' ' :: timeText b),
          some (((b.abs - a.abs : ℤ) : ℚ) / 1000000 / 60)⟩ := by
  obtain ⟨at', hat⟩ := readEntries_ok as (fun _ => none) lines hn
  have e1 := readEntries_gives _ _ _ _ _ _ hat h1
  have e2 := readEntries_gives _ _ _ _ _ _ hat h2
  have e3 := readEntries_gives _ _ _ _ _ _ hat h3
  have e4 := readEntries_gives _ _ _ _ _ _ hat h4
  refine ⟨at', hat, e1, e2, e3, e4, ?_⟩
  have hd := durationOf_eq a b ha hb "minutes"
  simp only [String.reduceEq, if_false, if_true, durationOf] at hd
  simp only [readTimeInfo, hat, e1, e2, e3, e4, hd]

/-- **C91** (with a file).  If the last entries of the file for the four names are the texts of two datetimes, in
whatever order and among whatever other entries and comments, then the run has their start and end as single texts, and
its duration is the time between them: the start moved by the duration in minutes is the end. -/
theorem C91_read_partial (as : Text → Bool) (lines : List Text) (a b : DT) (ha : Civil a) (hb : Civil b)
    (hn : ∀ l ∈ lines, ∀ n v t, Cfg.IsEntry l n v t → as n = true)
    (h1 : Gives lines "start_date" (dateText a)) (h2 : Gives lines "start_time" (timeText a))
    (h3 : Gives lines "end_date" (dateText b)) (h4 : Gives lines "end_time" (timeText b)) :
    ∃ info d, readTimeInfo as (some lines) = .ok info ∧
      info.text "start_datetime".toList = some (dateText a ++ ' ' :: timeText a) ∧
      info.text "end_datetime".toList = some (dateText b ++ ' ' :: timeText b) ∧
      info.text "duration_units".toList = some "minutes".toList ∧
      info.duration = some d ∧
      getCurrentDatetime (dateText a ++ ' ' :: timeText a) d "minutes" = .ok b := by
  obtain ⟨at', -, -, -, -, -, h⟩ := readTimeInfo_eq as lines a b ha hb hn h1 h2 h3 h4
  refine ⟨_, _, h, ?_, ?_, ?_, rfl, ?_⟩
  · simp [set]
  · simp [set]
  · simp [set]
  · obtain ⟨d, e1, e2⟩ := C90_start_plus_duration a b ha hb "minutes" (by simp)
    rw [durationOf_eq a b ha hb] at e1
    simp only [String.reduceEq, if_false, if_true] at e1
    injection e1 with e1
    rw [e1]
    exact e2

/-- **C91** (metadata).  A netCDF file opened for such a run, in any of the six time units, has these two texts as its
period and the length of the period in its own units. -/
theorem C91_coverage_partial (as : Text → Bool) (lines : List Text) (a b : DT) (ha : Civil a) (hb : Civil b)
    (hn : ∀ l ∈ lines, ∀ n v t, Cfg.IsEntry l n v t → as n = true)
    (h1 : Gives lines "start_date" (dateText a)) (h2 : Gives lines "start_time" (timeText a))
    (h3 : Gives lines "end_date" (dateText b)) (h4 : Gives lines "end_time" (timeText b))
    (units : String) (hu : units ∈ ["seconds", "minutes", "hours", "days", "months", "years"]) :
    ∃ info c, readTimeInfo as (some lines) = .ok info ∧ openCoverage info units = .ok c ∧
      c.start = dateText a ++ ' ' :: timeText a ∧ c.stop = dateText b ++ ' ' :: timeText b ∧
      durationOf a b units = .ok c.duration := by
  obtain ⟨at', -, e1, e2, e3, e4, h⟩ := readTimeInfo_eq as lines a b ha hb hn h1 h2 h3 h4
  obtain ⟨d, hd⟩ := C90_accepts a b ha hb units
  have hd' := hd
  rw [durationOf] at hd'
  have hty : ∃ ty, timeDtype units = some ty := by
    simp only [List.mem_cons, List.not_mem_nil, or_false] at hu
    rcases hu with rfl | rfl | rfl | rfl | rfl | rfl <;> exact ⟨_, rfl⟩
  obtain ⟨ty, hty⟩ := hty
  refine ⟨_, ⟨dateText a ++ ' ' :: timeText a, dateText b ++ ' ' :: timeText b, d, ty⟩, h, ?_, rfl, rfl, hd⟩
  have f : ∀ k ∈ ["start_date", "start_time", "end_date", "end_time"],
      set (set (set at' "duration_units" "minutes".toList) "start_datetime" (dateText a ++ ' ' :: timeText a))
        "end_datetime" (dateText b ++ ' ' :: timeText b) k.toList = at' k.toList := by
    intro k hk
    have k1 : k ≠ "end_datetime" := by rintro rfl; revert hk; decide
    have k2 : k ≠ "start_datetime" := by rintro rfl; revert hk; decide
    have k3 : k ≠ "duration_units" := by rintro rfl; revert hk; decide
    rw [set_ne _ _ _ _ k1, set_ne _ _ _ _ k2, set_ne _ _ _ _ k3]
  have f1 := (f "start_date" (by simp)).trans e1
  have f2 := (f "start_time" (by simp)).trans e2
  have f3 := (f "end_date" (by simp)).trans e3
  have f4 := (f "end_time" (by simp)).trans e4
  have f5 : set (set (set at' "duration_units" "minutes".toList) "start_datetime" (dateText a ++ ' ' :: timeText a))
      "end_datetime" (dateText b ++ ' ' :: timeText b) "start_datetime".toList =
      some (dateText a ++ ' ' :: timeText a) := by
    rw [set_ne _ _ _ _ (by decide), set_eq]
  rw [openCoverage]
  dsimp only
  rw [f1, f2, f3, f4, f5, set_eq]
  simp only [hd', hty]

/-- **C91** (a file that lacks an entry).  If one of the four names has no entry in the file, reading it fails. -/
theorem C91_missing_entry (as : Text → Bool) (lines : List Text) (k : String)
    (hk : k ∈ ["start_date", "start_time", "end_date", "end_time"])
    (hmiss : ∀ l ∈ lines, ∀ v t, ¬ Cfg.IsEntry l k.toList v t) :
    ∃ e, readTimeInfo as (some lines) = .error e := by
  simp only [readTimeInfo]
  cases h : readEntries as (fun _ => none) lines with
  | error e => exact ⟨e, rfl⟩
  | ok a =>
    have hz := readEntries_frame as _ _ lines k.toList h hmiss
    simp only [List.mem_cons, List.not_mem_nil, or_false] at hk
    refine ⟨"AttributeError", ?_⟩
    rcases hk with rfl | rfl | rfl | rfl
    all_goals
      simp only
      split
      · simp_all
      · rfl

/-- **C91** (without a file).  The defaults are one day, and agree with their duration. -/
theorem C91_default_day (as : Text → Bool) :
    ∃ info, readTimeInfo as none = .ok info ∧ info.duration = some 1440 ∧
      info.text "start_date".toList = some (dateText ⟨2020, 1, 1, 0⟩) ∧
      info.text "start_time".toList = some (timeText ⟨2020, 1, 1, 0⟩) ∧
      info.text "end_date".toList = some (dateText ⟨2020, 1, 2, 0⟩) ∧
      info.text "end_time".toList = some (timeText ⟨2020, 1, 2, 0⟩) ∧
      durationOf ⟨2020, 1, 1, 0⟩ ⟨2020, 1, 2, 0⟩ "minutes" = .ok 1440 := by
  refine ⟨_, rfl, rfl, ?_, ?_, ?_, ?_, ?_⟩ <;> decide +kernel

/-- **C91** (violated without a file).  "Using arbitrary defaults", the warning says, but these lack the two single
texts of the start and end: opening any netCDF output file then fails, in whatever time units. -/
theorem C91_default_output_violated (as : Text → Bool) (units : String) :
    ∃ info, readTimeInfo as none = .ok info ∧ openCoverage info units = .error "AttributeError" := by
  refine ⟨_, rfl, ?_⟩
  simp [openCoverage, set]

/-- A file that meets the hypotheses: a comment, the entries in another order, one of them given twice. -/
def sampleFile : List Text :=
  ["# Time info\n", "end_time | 12:00:00 | string | help\n", "start_date | 2015-10-01 | string | help\n", "\n",
   "start_time|00:30:05|string|help\n", "end_date | 2016-01-01 | string | help\n",
   "start_date | 2015-10-02 | string | help\n"].map String.toList

example : ∃ info, readTimeInfo (fun _ => true) (some sampleFile) = .ok info ∧
    info.text "start_datetime".toList = some "2015-10-02 00:30:05".toList ∧
    info.duration = some (131729 + 55 / 60) ∧
    openCoverage info "days" =
      .ok ⟨"2015-10-02 00:30:05".toList, "2016-01-01 12:00:00".toList, 91 + 41395 / 86400, "datetime64[D]"⟩ :=
  ⟨_, rfl, by decide +kernel, by decide +kernel, by decide +kernel⟩

example : Gives sampleFile "start_date" (dateText ⟨2015, 10, 2, 0⟩) := by
  refine ⟨sampleFile.take 6, _, [], "string".toList, rfl, (Cfg.C75_format _ _ _ _).1 ?_, by simp⟩
  decide +kernel

/-! ## Offsets of any size (C42) -/

/-- Every ordinal of the calendar belongs to a date. -/
theorem exists_date (n : ℕ) (h1 : 1 ≤ n) (h2 : n ≤ 3652059) :
    ∃ y m d, DateOk y m d ∧ ymd2ord y m d = n := by
  induction n, h1 using Nat.le_induction with
  | base => exact ⟨1, 1, 1, ⟨by decide, by decide, by decide, by decide, by decide, by decide⟩, by decide⟩
  | succ n hn ih =>
    obtain ⟨y, m, d, hd, he⟩ := ih (by omega)
    obtain ⟨g1, g2, g3, g4, g5, g6⟩ := hd
    by_cases hday : d < daysInMonth y m
    · refine ⟨y, m, d + 1, ⟨g1, g2, g3, g4, by omega, hday⟩, ?_⟩
      simp only [ymd2ord] at he ⊢; omega
    · have hdd : d = daysInMonth y m := le_antisymm g6 (not_lt.1 hday)
      by_cases hm : m < 12
      · refine ⟨y, m + 1, 1, ⟨g1, g2, by omega, by omega, le_refl _, ?_⟩, ?_⟩
        · simp only [daysInMonth]; split_ifs <;> omega
        · rw [← he, hdd]
          by_cases hl : isLeap y = true <;>
          · simp only [ymd2ord, daysInMonth, hl]
            interval_cases m <;> simp [dbm]
      · have hm12 : m = 12 := by omega
        subst hm12
        have hdy := dby_succ y g1
        have hend : ymd2ord y 12 d = daysBeforeYear (y + 1) := by
          rw [hdd, hdy]
          by_cases hl : isLeap y = true <;> simp [ymd2ord, daysInMonth, hl, dbm]
        have hy : y + 1 ≤ 9999 := by
          by_contra hc
          have : y = 9999 := by omega
          subst this
          rw [hend] at he
          have : daysBeforeYear (9999 + 1) = 3652059 := by decide
          omega
        refine ⟨y + 1, 1, 1, ⟨by omega, hy, by decide, by decide, by decide, ?_⟩, ?_⟩
        · simp [daysInMonth]
        · rw [← he, hend]; simp [ymd2ord, dbm]

/-- Rounding gives the nearest whole number, the even one when two are equally near. -/
theorem roundUs_spec (x : ℚ) : |(roundUs x : ℚ) - x| ≤ 1 / 2 ∧
    (|(roundUs x : ℚ) - x| = 1 / 2 → roundUs x % 2 = 0) := by
  have hf : x = ⌊x⌋ + Int.fract x := (Int.floor_add_fract x).symm
  have h0 := Int.fract_nonneg x
  have h1 := Int.fract_lt_one x
  unfold roundUs
  split_ifs with c1 c2 c3
  · have e : ((⌊x⌋ : ℤ) : ℚ) - x = -Int.fract x := by linarith
    rw [e, abs_neg, abs_of_nonneg h0]
    exact ⟨c1.le, fun h => by linarith⟩
  · have e : ((⌊x⌋ + 1 : ℤ) : ℚ) - x = 1 - Int.fract x := by push_cast; linarith
    rw [e, abs_of_nonneg (by linarith)]
    exact ⟨by linarith, fun h => by linarith⟩
  · have e : ((⌊x⌋ : ℤ) : ℚ) - x = -Int.fract x := by linarith
    rw [e, abs_neg, abs_of_nonneg h0]
    exact ⟨not_lt.1 c2, fun _ => c3⟩
  · have e : ((⌊x⌋ + 1 : ℤ) : ℚ) - x = 1 - Int.fract x := by push_cast; linarith
    rw [e, abs_of_nonneg (by linarith)]
    exact ⟨by linarith [not_lt.1 c1], fun _ => by omega⟩

/-- **C42** (any offset).  In the units with a fixed number of seconds, every offset, whole or not, leads to the
datetime of the calendar whose distance from the origin is the offset rounded to the nearest microsecond (to the even
one when two are equally near); the call fails exactly when that would leave the years 1 to 9999. -/
theorem C42_any_offset (o : DT) (x s : ℚ) (units : String)
    (hu : (units, s) ∈ [("weeks", (604800 : ℚ)), ("days", 86400), ("hours", 3600), ("minutes", 60), ("seconds", 1)]) :
    ∃ k : ℤ, |(k : ℚ) - x * s * 1000000| ≤ 1 / 2 ∧ (|(k : ℚ) - x * s * 1000000| = 1 / 2 → k % 2 = 0) ∧
      ((∃ t : DT, t.Ok ∧ t.abs - o.abs = k ∧ fromTimeSince o x units = .ok t) ∨
       ((∀ t : DT, t.Ok → t.abs - o.abs ≠ k) ∧
         fromTimeSince o x units = .error "OverflowError: date value out of range")) := by
  refine ⟨roundUs (x * s * 1000000), (roundUs_spec _).1, (roundUs_spec _).2, ?_⟩
  have hf : fromTimeSince o x units = addUs o (roundUs (x * s * 1000000)) := by
    simp only [List.mem_cons, Prod.mk.injEq, List.not_mem_nil, or_false] at hu
    rcases hu with ⟨rfl, rfl⟩ | ⟨rfl, rfl⟩ | ⟨rfl, rfl⟩ | ⟨rfl, rfl⟩ | ⟨rfl, rfl⟩ <;>
    · simp only [fromTimeSince, String.reduceEq, if_false, if_true]
      try (congr 2; ring)
  rw [hf]
  generalize roundUs (x * s * 1000000) = k
  have hd' : ((dayUs : ℕ) : ℤ) = 86400000000 := rfl
  by_cases hr : 1 ≤ (o.abs + k) / 86400000000 ∧ (o.abs + k) / 86400000000 ≤ 3652059
  · left
    obtain ⟨y, m, d, hd, he⟩ := exists_date ((o.abs + k) / 86400000000).toNat (by omega) (by omega)
    refine ⟨⟨y, m, d, ((o.abs + k) % 86400000000).toNat⟩, ⟨hd, ?_⟩, ?_, ?_⟩
    · dsimp only; omega
    · simp only [DT.abs, hd', he]
      simp only [DT.abs, hd'] at hr
      omega
    · simp only [addUs, hd', hr, and_self, if_true]
      rw [← he, ord2ymd_ymd2ord _ _ _ hd]
  · right
    constructor
    · intro t ⟨ht, hus⟩ hk
      have hb := ymd2ord_bounds _ _ _ ht
      apply hr
      have : o.abs + k = (ymd2ord t.year t.month t.day : ℤ) * 86400000000 + t.us := by
        rw [← hk]; simp only [DT.abs, hd']; ring
      rw [this]
      omega
    · simp only [addUs, hd']
      rw [if_neg hr]

/-- A case: half a microsecond is rounded down to the even number, one and a half up. -/
example : roundUs (1 / 2) = 0 ∧ roundUs (3 / 2) = 2 := by decide +kernel

end TimeInfo
