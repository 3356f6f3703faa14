import Verif.TimeUtilsModel
import Mathlib.Tactic.Ring
import Mathlib.Tactic.Linarith
import Mathlib.Tactic.NormNum
import Mathlib.Tactic.FieldSimp
import Mathlib.Tactic.IntervalCases

/-!
# Properties of the calendar and clock conversions (C42, C63)
-/

set_option autoImplicit false

namespace TimeUtils

/-! ## Ordinals -/

/-- A date that the Python constructor accepts. -/
structure DateOk (y m d : ℕ) : Prop where
  year_pos : 1 ≤ y
  year_le : y ≤ 9999
  month_pos : 1 ≤ m
  month_le : m ≤ 12
  day_pos : 1 ≤ d
  day_le : d ≤ daysInMonth y m

theorem isLeap_iff (y : ℕ) : isLeap y = true ↔ y % 4 = 0 ∧ (y % 100 ≠ 0 ∨ y % 400 = 0) := by
  simp [isLeap]

theorem ord2ymd_ymd2ord (y m d : ℕ) (h : DateOk y m d) : ord2ymd (ymd2ord y m d) = (y, m, d) := by
  obtain ⟨h1, -, h3, h4, h5, h6⟩ := h
  obtain ⟨a, b, c, e, hb, hc, he, rfl⟩ :
      ∃ a b c e, b < 4 ∧ c < 25 ∧ e < 4 ∧ y = 400 * a + 100 * b + 4 * c + e + 1 :=
    ⟨(y - 1) / 400, (y - 1) % 400 / 100, (y - 1) % 100 / 4, (y - 1) % 4, by omega, by omega,
      by omega, by omega⟩
  have hdby : daysBeforeYear (400 * a + 100 * b + 4 * c + e + 1)
      = 146097 * a + 36524 * b + 1461 * c + 365 * e := by
    simp only [daysBeforeYear]; omega
  have hleap : isLeap (400 * a + 100 * b + 4 * c + e + 1) = decide (e = 3 ∧ (c ≠ 24 ∨ b = 3)) := by
    rw [Bool.eq_iff_iff, isLeap_iff, decide_eq_true_iff]; omega
  generalize hL : decide (e = 3 ∧ (c ≠ 24 ∨ b = 3)) = L at hleap
  -- the day of the year
  obtain ⟨r, hr⟩ : ∃ r, r = dbm m + (if 2 < m ∧ L = true then 1 else 0) + d - 1 := ⟨_, rfl⟩
  have hrlt : r < 365 + (if L = true then 1 else 0) := by
    simp only [daysInMonth, hleap] at h6
    clear hL hleap hdby
    interval_cases m <;> cases L <;> simp [dbm] at hr h6 ⊢ <;> omega
  have hord : ymd2ord (400 * a + 100 * b + 4 * c + e + 1) m d - 1
      = 146097 * a + 36524 * b + 1461 * c + 365 * e + r := by
    simp only [ymd2ord, hdby, hleap]; omega
  have hL' : L = true ↔ e = 3 ∧ (c ≠ 24 ∨ b = 3) := by rw [← hL, decide_eq_true_iff]
  have q400 : (146097 * a + 36524 * b + 1461 * c + 365 * e + r) / 146097 = a ∧
      (146097 * a + 36524 * b + 1461 * c + 365 * e + r) % 146097
        = 36524 * b + 1461 * c + 365 * e + r := by
    cases hLc : L <;> simp [hLc] at hL' hrlt <;> omega
  simp only [ord2ymd, hord, q400.1, q400.2]
  by_cases hlast : r = 365
  · -- December 31 of a leap year
    have hLt : L = true := by cases hLc : L <;> simp [hLc] at hrlt ⊢; omega
    obtain ⟨he3, hcb⟩ := hL'.1 hLt
    subst he3
    have hmd : m = 12 ∧ d = 31 := by
      simp only [daysInMonth, hleap, hLt] at h6
      simp only [hLt] at hr
      clear hL hleap hdby hord q400
      interval_cases m <;> simp [dbm] at hr h6 ⊢ <;> omega
    obtain ⟨rfl, rfl⟩ := hmd
    subst hlast
    by_cases hc24 : c = 24
    · have hb3 : b = 3 := hcb.resolve_left (fun h => h hc24)
      clear hL hL' hleap hdby hord q400 h1 h6 hr hrlt
      have e0 : (36524 * b + 1461 * c + 365 * 3 + 365) / 36524 = 4 := by omega
      have e1 : (36524 * b + 1461 * c + 365 * 3 + 365) % 36524 = 0 := by omega
      simp only [e0, e1, Nat.zero_div, Nat.zero_mod, or_true, if_true, Prod.mk.injEq, and_true]
      omega
    · have e1 : (36524 * b + 1461 * c + 365 * 3 + 365) / 36524 = b := by omega
      have e2 : (36524 * b + 1461 * c + 365 * 3 + 365) % 36524 = 1461 * c + 365 * 3 + 365 := by omega
      have e3 : (1461 * c + 365 * 3 + 365) / 1461 = c := by omega
      have e4 : (1461 * c + 365 * 3 + 365) % 1461 = 1460 := by omega
      simp only [e1, e2, e3, e4]
      simp
      omega
  · have hr365 : r < 365 := by split_ifs at hrlt <;> omega
    have e1 : (36524 * b + 1461 * c + 365 * e + r) / 36524 = b := by omega
    have e2 : (36524 * b + 1461 * c + 365 * e + r) % 36524 = 1461 * c + 365 * e + r := by omega
    have e3 : (1461 * c + 365 * e + r) / 1461 = c := by omega
    have e4 : (1461 * c + 365 * e + r) % 1461 = 365 * e + r := by omega
    have e5 : (365 * e + r) / 365 = e := by omega
    have e6 : (365 * e + r) % 365 = r := by omega
    have hn : ¬ (e = 4 ∨ b = 4) := by omega
    simp only [e1, e2, e3, e4, e5, e6, hn, if_false, hL]
    simp only [daysInMonth, hleap] at h6
    have hy : a * 400 + 1 + (b * 100 + c * 4 + e) = 400 * a + 100 * b + 4 * c + e + 1 := by ring
    rw [hy]
    clear hL hL' hleap hdby hord q400 e1 e2 e3 e4 e5 e6 hn hy hrlt
    have key : ∀ q, q = (r + 50) / 32 →
        (if r < dbm q + (if 2 < q ∧ L = true then 1 else 0) then
          (400 * a + 100 * b + 4 * c + e + 1, q - 1,
            r - (dbm q + (if 2 < q ∧ L = true then 1 else 0)
              - (dim (q - 1) + if q - 1 = 2 ∧ L = true then 1 else 0)) + 1)
        else (400 * a + 100 * b + 4 * c + e + 1, q,
          r - (dbm q + if 2 < q ∧ L = true then 1 else 0) + 1))
        = (400 * a + 100 * b + 4 * c + e + 1, m, d) := by
      intro q hq
      have hqm : q = m ∨ q = m + 1 := by
        interval_cases m <;> cases L <;> simp [dbm] at hr h6 <;> omega
      interval_cases m <;> rcases hqm with h | h <;> subst h <;> cases L <;>
        simp [dbm, dim] at hr h6 ⊢ <;> (try split_ifs) <;> (try simp) <;> omega
    exact key _ rfl

/-- Every valid date has an ordinal between 1 and that of 9999-12-31. -/
theorem ymd2ord_bounds (y m d : ℕ) (h : DateOk y m d) :
    1 ≤ ymd2ord y m d ∧ ymd2ord y m d ≤ 3652059 := by
  obtain ⟨h1, h2, h3, h4, h5, h6⟩ := h
  have hle : daysBeforeYear y + (if isLeap y = true then 1 else 0) ≤ 3651694 := by
    by_cases hl : isLeap y = true
    · rw [if_pos hl]
      rw [isLeap_iff] at hl
      simp only [daysBeforeYear]; omega
    · rw [if_neg hl]
      simp only [daysBeforeYear]; omega
  have hday : dbm m + (if 2 < m ∧ isLeap y = true then 1 else 0) + d
      ≤ 365 + (if isLeap y = true then 1 else 0) := by
    simp only [daysInMonth] at h6
    generalize isLeap y = L at h6 ⊢
    clear hle
    interval_cases m <;> cases L <;> simp [dbm] at h6 ⊢ <;> omega
  simp only [ymd2ord]
  omega

/-- A datetime object: a valid date and a time of day. -/
structure DT.Ok (t : DT) : Prop where
  date : DateOk t.year t.month t.day
  us_lt : t.us < 86400000000

/-- Adding the difference of two datetimes to the first gives the second. -/
theorem addUs_diff (o t : DT) (ht : t.Ok) : addUs o (t.abs - o.abs) = .ok t := by
  obtain ⟨hd, hu⟩ := ht
  have hb := ymd2ord_bounds _ _ _ hd
  have habs : o.abs + (t.abs - o.abs)
      = (ymd2ord t.year t.month t.day : ℤ) * 86400000000 + t.us := by
    simp only [DT.abs, dayUs]; omega
  have hq : ((ymd2ord t.year t.month t.day : ℤ) * 86400000000 + t.us) / 86400000000
      = ymd2ord t.year t.month t.day := by omega
  have hr : ((ymd2ord t.year t.month t.day : ℤ) * 86400000000 + t.us) % 86400000000 = t.us := by
    omega
  have hd' : ((dayUs : ℕ) : ℤ) = 86400000000 := rfl
  simp only [addUs, habs, hd', hq, hr]
  rw [if_pos (by omega), Int.toNat_natCast, Int.toNat_natCast, ord2ymd_ymd2ord _ _ _ hd]

theorem roundUs_intCast (n : ℤ) : roundUs (n : ℚ) = n := by
  simp [roundUs]

/-- **C42** (round trip).  In the units with a fixed number of seconds, turning a
datetime into an offset from an origin and back gives the datetime, for every
origin and every datetime of the calendar.

Missing from the full property: `"years"` and `"months"` (see the violations
below), and the rounding of offsets to doubles. -/
theorem C42_roundtrip_partial (o t : DT) (ht : t.Ok) (units : String)
    (hu : units ∈ ["weeks", "days", "hours", "minutes", "seconds"]) :
    ∃ x, timeSince o t units = .ok x ∧ fromTimeSince o x units = .ok t := by
  have key := addUs_diff o t ht
  simp only [List.mem_cons, List.not_mem_nil, or_false] at hu
  rcases hu with rfl | rfl | rfl | rfl | rfl <;>
  · refine ⟨_, rfl, ?_⟩
    simp only [fromTimeSince, String.reduceEq, if_false, if_true]
    rw [← key]
    congr 1
    refine Eq.trans ?_ (roundUs_intCast (t.abs - o.abs))
    congr 1
    ring

example : (⟨2020, 2, 29, 5⟩ : DT).Ok := ⟨⟨by decide, by decide, by decide, by decide, by decide,
  by decide⟩, by decide⟩

/-- **C42** (violated for years).  The offset in years counts years of exactly 365
days, but the way back takes whole calendar years only: unless the two datetimes
are a multiple of 365 days apart, the offset cannot be converted back at all.  Even
when they are, leap days are lost: 2020-12-31 comes back as 2021-01-01. -/
theorem C42_years_violated :
    (∀ o t : DT, (¬ ∃ k : ℤ, t.abs - o.abs = k * (365 * 86400000000)) →
      ∃ x, timeSince o t "years" = .ok x ∧ fromTimeSince o x "years" = .error "ValueError") ∧
    ∃ x, timeSince ⟨2020, 1, 1, 0⟩ ⟨2020, 12, 31, 0⟩ "years" = .ok x ∧
      fromTimeSince ⟨2020, 1, 1, 0⟩ x "years" = .ok ⟨2021, 1, 1, 0⟩ := by
  constructor
  · intro o t h
    refine ⟨_, rfl, ?_⟩
    simp only [fromTimeSince, if_true]
    rw [if_neg]
    intro hx
    apply h
    refine ⟨⌊((t.abs - o.abs : ℤ) : ℚ) / 1000000 / 31536000⌋, ?_⟩
    have h2 : ((t.abs - o.abs : ℤ) : ℚ)
        = ((⌊((t.abs - o.abs : ℤ) : ℚ) / 1000000 / 31536000⌋ : ℤ) : ℚ) * (365 * 86400000000) := by
      rw [← hx]; ring
    exact_mod_cast h2
  · refine ⟨1, ?_, ?_⟩
    · decide +kernel
    · decide +kernel

/-- **C42** (violated for months).  There is no offset in months at all. -/
theorem C42_months_violated (o t : DT) : timeSince o t "months" = .error "KeyError" := rfl

theorem fixMonths_spec (k : ℤ) : (fixMonths k).1 * 12 + (fixMonths k).2 = k ∧
    |(fixMonths k).2| < 12 := by
  simp only [fixMonths]
  split_ifs with h
  · rcases lt_trichotomy k 0 with hk | hk | hk
    · rw [Int.sign_eq_neg_one_of_neg hk, abs_of_neg hk] at *
      constructor
      · omega
      · rw [abs_lt]; omega
    · subst hk; simp at h
    · rw [Int.sign_eq_one_of_pos hk, abs_of_pos hk] at *
      constructor
      · omega
      · rw [abs_lt]; omega
  · exact ⟨by simp, show |k| < 12 by omega⟩

/-- What adding years and months does: the target month, with the day clamped. -/
theorem fromTimeSince_months (o : DT) (ho : o.Ok) (k : ℤ) :
    fromTimeSince o k "months" =
      (let n := (o.year : ℤ) * 12 + (o.month - 1) + k
       if 1 ≤ n / 12 ∧ n / 12 ≤ 9999 then
        .ok ⟨(n / 12).toNat, (n % 12 + 1).toNat,
          min (daysInMonth (n / 12).toNat (n % 12 + 1).toNat) o.day, o.us⟩
       else .error "ValueError") := by
  obtain ⟨h1, h2⟩ := fixMonths_spec k
  obtain ⟨⟨-, -, hm1, hm2, -, -⟩, -⟩ := ho
  rw [abs_lt] at h2
  simp only [fromTimeSince, String.reduceEq, if_false, if_true, Int.floor_intCast, addYM]
  generalize (fixMonths k).1 = a at *
  generalize (fixMonths k).2 = b at *
  have e : (if 12 < (o.month : ℤ) + b then ((o.year : ℤ) + a + 1, (o.month : ℤ) + b - 12)
      else if (o.month : ℤ) + b < 1 then ((o.year : ℤ) + a - 1, (o.month : ℤ) + b + 12)
      else ((o.year : ℤ) + a, (o.month : ℤ) + b))
      = (((o.year : ℤ) * 12 + (o.month - 1) + k) / 12,
         ((o.year : ℤ) * 12 + (o.month - 1) + k) % 12 + 1) := by
    split_ifs <;> rw [Prod.mk.injEq] <;> omega
  rw [e]

/-- **C42** (months).  Moving a datetime by `k` months, forwards or backwards, and
taking the month difference gives `k` back. -/
theorem C42_month_difference (o t : DT) (ho : o.Ok) (k : ℤ)
    (h : fromTimeSince o k "months" = .ok t) : monthDifference o t = k := by
  rw [fromTimeSince_months o ho k] at h
  simp only at h
  split_ifs at h with hc
  injection h with h
  subst h
  obtain ⟨⟨-, -, hm1, hm2, -, -⟩, -⟩ := ho
  simp only [monthDifference]
  omega

example : fromTimeSince ⟨2019, 11, 30, 7⟩ (3 : ℤ) "months" = .ok ⟨2020, 2, 29, 7⟩ := by
  decide +kernel

/-- **C42** (months, other direction).  Moving a datetime by the month difference
to another one reaches the month of the other one, and the other one itself if the
day and the time of day agree. -/
theorem C42_month_inverse (o t : DT) (ho : o.Ok) (ht : t.Ok) :
    ∃ t', fromTimeSince o (monthDifference o t : ℤ) "months" = .ok t' ∧
      t'.year = t.year ∧ t'.month = t.month ∧
      (t.day = o.day → t.us = o.us → t' = t) := by
  rw [fromTimeSince_months o ho]
  obtain ⟨⟨-, -, hm1, hm2, -, -⟩, -⟩ := ho
  obtain ⟨⟨hy1, hy2, hn1, hn2, -, hd⟩, -⟩ := ht
  have e1 : ((o.year : ℤ) * 12 + (o.month - 1) + monthDifference o t) / 12 = t.year := by
    simp only [monthDifference]; omega
  have e2 : ((o.year : ℤ) * 12 + (o.month - 1) + monthDifference o t) % 12 + 1 = t.month := by
    simp only [monthDifference]; omega
  simp only [e1, e2, Int.toNat_natCast]
  rw [if_pos (by omega)]
  refine ⟨_, rfl, rfl, rfl, ?_⟩
  intro h3 h4
  rw [← h3, ← h4, min_eq_right hd]

/-! ## Strings -/

theorem isDigit_natStr (n : ℕ) : ∀ c ∈ natStr n, c.isDigit = true :=
  fun _ hc => Nat.isDigit_of_mem_toDigits (by decide) (by decide) hc

theorem isDigit_pad (n k : ℕ) : ∀ c ∈ pad n k, c.isDigit = true := by
  intro c hc
  simp only [pad, List.mem_append, List.mem_replicate] at hc
  rcases hc with ⟨-, rfl⟩ | hc
  · decide
  · exact isDigit_natStr n c hc

theorem parseNat_zeros (k n : ℕ) : parseNat (List.replicate k '0' ++ natStr n) = .ok n := by
  have h1 : List.replicate k '0' ++ natStr n ≠ [] := by
    simp [natStr]
  have h2 : (List.replicate k '0' ++ natStr n).all Char.isDigit = true := by
    rw [List.all_eq_true]
    intro c hc
    simp only [List.mem_append, List.mem_replicate] at hc
    rcases hc with ⟨-, rfl⟩ | hc
    · decide
    · exact isDigit_natStr n c hc
  rw [parseNat, if_pos ⟨h1, h2⟩, Nat.ofDigitChars_append, Nat.ofDigitChars_replicate_zero]
  simp [natStr]

theorem parseNat_pad (n k : ℕ) : parseNat (pad n k) = .ok n := parseNat_zeros _ _

theorem parseNat_natStr (n : ℕ) : parseNat (natStr n) = .ok n := parseNat_zeros 0 n

theorem length_pad (n k : ℕ) (hk : 0 < k) (h : n < 10 ^ k) : (pad n k).length = k := by
  have := (Nat.length_toDigits_le_iff (b := 10) (n := n) (by decide) hk).2 h
  simp only [pad, natStr, List.length_append, List.length_replicate]
  omega

theorem splitOn_end (c : Char) (w : Text) (h : c ∉ w) : splitOn c w = [w] := by
  induction w with
  | nil => rfl
  | cons x xs ih =>
    simp only [List.mem_cons, not_or] at h
    rw [splitOn, if_neg (fun e => h.1 e.symm), ih h.2]

theorem splitOn_cons (c : Char) (w r : Text) (h : c ∉ w) :
    splitOn c (w ++ c :: r) = w :: splitOn c r := by
  induction w with
  | nil => simp [splitOn]
  | cons x xs ih =>
    simp only [List.mem_cons, not_or] at h
    rw [List.cons_append, splitOn, if_neg (fun e => h.1 e.symm), ih h.2]

theorem notMem_of_digits {w : Text} (h : ∀ c ∈ w, c.isDigit = true) (c : Char)
    (hc : c.isDigit = false) : c ∉ w := fun hm => by rw [h c hm] at hc; exact absurd hc (by simp)

theorem threeNumbers_pads (c : Char) (hc : c.isDigit = false) (w : Text) (a b d : ℕ) (k l : ℕ)
    (hw : parseNat w = .ok a) (hwd : ∀ x ∈ w, x.isDigit = true) :
    threeNumbers c (w ++ c :: (pad b k ++ c :: pad d l)) = .ok (a, b, d) := by
  simp only [threeNumbers, splitOn_cons c w _ (notMem_of_digits hwd c hc),
    splitOn_cons c (pad b k) _ (notMem_of_digits (isDigit_pad _ _) c hc),
    splitOn_end c (pad d l) (notMem_of_digits (isDigit_pad _ _) c hc), hw, parseNat_pad]

theorem fromOneStr_pads (w : Text) (y m d h mi s : ℕ) (hw : parseNat w = .ok y)
    (hwd : ∀ x ∈ w, x.isDigit = true) :
    fromOneStr (w ++ '-' :: (pad m 2 ++ '-' :: pad d 2) ++
      ' ' :: (pad h 2 ++ ':' :: (pad mi 2 ++ ':' :: pad s 2))) = mkDT y m d h mi s := by
  have hsp : ' ' ∉ w ++ '-' :: (pad m 2 ++ '-' :: pad d 2) := by
    have h1 := notMem_of_digits hwd ' ' (by decide)
    have h2 := notMem_of_digits (isDigit_pad m 2) ' ' (by decide)
    have h3 := notMem_of_digits (isDigit_pad d 2) ' ' (by decide)
    simp [h1, h2, h3]
  have hsp2 : ' ' ∉ pad h 2 ++ ':' :: (pad mi 2 ++ ':' :: pad s 2) := by
    have h1 := notMem_of_digits (isDigit_pad h 2) ' ' (by decide)
    have h2 := notMem_of_digits (isDigit_pad mi 2) ' ' (by decide)
    have h3 := notMem_of_digits (isDigit_pad s 2) ' ' (by decide)
    simp [h1, h2, h3]
  simp only [fromOneStr, splitOn_cons ' ' _ _ hsp, splitOn_end ' ' _ hsp2,
    threeNumbers_pads '-' (by decide) w y m d 2 2 hw hwd,
    threeNumbers_pads ':' (by decide) (pad h 2) h mi s 2 2 (parseNat_pad _ _) (isDigit_pad _ _)]

/-- **C63** (datetime strings).  The string built from six numbers is read back as
the datetime with these six numbers, for all numbers: the reader accepts and
rejects exactly what the constructor of datetimes does. -/
theorem C63_datetime_str (y m d h mi s : ℕ) :
    fromOneStr (datetimeStr y m d h mi s) = mkDT y m d h mi s :=
  fromOneStr_pads _ _ _ _ _ _ _ (parseNat_natStr y) (isDigit_natStr y)

example : mkDT 2015 10 1 0 30 5 = .ok ⟨2015, 10, 1, 1805000000⟩ := by decide +kernel
example : mkDT 2015 2 29 0 30 5 = .error "ValueError" := by decide +kernel

/-- The text of a datetime without a fraction of a second. -/
theorem strDT_whole (t : DT) (h : t.us % 1000000 = 0) :
    strDT t = pad t.year 4 ++ '-' :: (pad t.month 2 ++ '-' :: pad t.day 2) ++
      ' ' :: (pad (t.us / 1000000 / 3600) 2 ++ ':' :: (pad (t.us / 1000000 / 60 % 60) 2 ++
        ':' :: pad (t.us / 1000000 % 60) 2)) := by
  simp [strDT, h]

theorem take_drop_join (a b : Text) (ha : a.length = 10) (hb : b.length = 8) (sep : Text) :
    standardize (a ++ sep ++ b) = a ++ ' ' :: b := by
  rw [standardize]
  have h1 : (a ++ sep ++ b).take 10 = a := by
    rw [List.append_assoc, ← ha, List.take_left]
  have h2 : (a ++ sep ++ b).drop ((a ++ sep ++ b).length - 8) = b := by
    have : (a ++ sep ++ b).length - 8 = (a ++ sep).length := by
      simp only [List.length_append]; omega
    rw [this, List.drop_left]
  rw [h1, h2]

theorem daysInMonth_le (y m : ℕ) : daysInMonth y m ≤ 31 := by
  simp only [daysInMonth]; split_ifs <;> omega

/-- The text of a datetime in whole seconds, with any separator between the date and
the time, is read back as the datetime. -/
theorem fromOneStr_standardize (t : DT) (ht : t.Ok) (hs : t.us % 1000000 = 0) (sep : Text) :
    fromOneStr (standardize ((pad t.year 4 ++ '-' :: (pad t.month 2 ++ '-' :: pad t.day 2)) ++ sep ++
      (pad (t.us / 1000000 / 3600) 2 ++ ':' :: (pad (t.us / 1000000 / 60 % 60) 2 ++
        ':' :: pad (t.us / 1000000 % 60) 2)))) = .ok t := by
  obtain ⟨⟨hy1, hy2, hm1, hm2, hd1, hd2⟩, hu⟩ := ht
  have hd31 := daysInMonth_le t.year t.month
  have l1 := length_pad t.year 4 (by decide) (by omega)
  have l2 := length_pad t.month 2 (by decide) (by omega)
  have l3 := length_pad t.day 2 (by decide) (by omega)
  have l4 := length_pad (t.us / 1000000 / 3600) 2 (by decide) (by omega)
  have l5 := length_pad (t.us / 1000000 / 60 % 60) 2 (by decide) (by omega)
  have l6 := length_pad (t.us / 1000000 % 60) 2 (by decide) (by omega)
  rw [take_drop_join _ _ (by simp [l1, l2, l3]) (by simp [l4, l5, l6])]
  rw [fromOneStr_pads _ _ _ _ _ _ _ (parseNat_pad _ _) (isDigit_pad _ _), mkDT, if_pos]
  · congr 1
    have : ((t.us / 1000000 / 3600 * 60 + t.us / 1000000 / 60 % 60) * 60 + t.us / 1000000 % 60)
        * 1000000 = t.us := by omega
    rw [this]
  · exact ⟨hy1, hy2, hm1, hm2, hd1, hd2, by omega, by omega, by omega⟩

/-- **C63** (minutes).  A number of minutes is turned into the text of a datetime,
and the text back into the same number of minutes, whenever the datetime is in the
calendar and has no fraction of a second, that is for every origin and offset in
whole seconds.

Missing: datetimes with a fraction of a second, see the violation below. -/
theorem C63_minutes_partial (o t : DT) (x : ℚ) (k : ℤ) (hx : x = k / 60)
    (hos : o.us % 1000000 = 0) (ht : t.Ok) (hk : t.abs = o.abs + k * 1000000) :
    ∃ s, minutesToDatetime o x = .ok s ∧ datetimeToMinutes o s = .ok x := by
  have hd : t.abs - o.abs = k * 1000000 := by omega
  have h1 : fromTimeSince o x "minutes" = .ok t := by
    have key := addUs_diff o t ht
    simp only [fromTimeSince, String.reduceEq, if_false, if_true]
    rw [← key, hx]
    congr 1
    refine Eq.trans ?_ (roundUs_intCast (t.abs - o.abs))
    rw [hd]
    congr 1
    push_cast
    ring
  have hts : t.us % 1000000 = 0 := by
    have hd' : ((dayUs : ℕ) : ℤ) = 86400000000 := rfl
    simp only [DT.abs, hd'] at hk
    omega
  refine ⟨strDT t, by simp only [minutesToDatetime, h1], ?_⟩
  have h2 := fromOneStr_standardize t ht hts [' ']
  have h3 : (pad t.year 4 ++ '-' :: (pad t.month 2 ++ '-' :: pad t.day 2)) ++ [' '] ++
      (pad (t.us / 1000000 / 3600) 2 ++ ':' :: (pad (t.us / 1000000 / 60 % 60) 2 ++
        ':' :: pad (t.us / 1000000 % 60) 2)) = strDT t := by
    rw [strDT_whole t hts]; simp
  rw [h3] at h2
  have hs : secsPerUnit "minutes" = some 60 := rfl
  simp only [datetimeToMinutes, h2, timeSince, hs, hd, hx]
  congr 1
  push_cast
  ring

example : minutesToDatetime ⟨2015, 12, 31, 86340000000⟩ (3 / 2)
    = .ok "2016-01-01 00:00:30".toList := by decide +kernel

/-- **C63** (separator).  Times given with another separator than a blank, such as
the `T` of ISO 8601 or none at all, are read the same. -/
theorem C63_separator (o t : DT) (ht : t.Ok) (hs : t.us % 1000000 = 0) (sep : Text) :
    datetimeToMinutes o ((pad t.year 4 ++ '-' :: (pad t.month 2 ++ '-' :: pad t.day 2)) ++ sep ++
      (pad (t.us / 1000000 / 3600) 2 ++ ':' :: (pad (t.us / 1000000 / 60 % 60) 2 ++
        ':' :: pad (t.us / 1000000 % 60) 2)))
      = .ok (((t.abs - o.abs : ℤ) : ℚ) / 1000000 / 60) := by
  have hs60 : secsPerUnit "minutes" = some 60 := rfl
  simp only [datetimeToMinutes, fromOneStr_standardize t ht hs sep, timeSince, hs60]

/-- **C63** (violated with fractions of a second).  A tenth of a second after the
origin is printed with a fraction that the reader cannot handle. -/
theorem C63_fraction_violated :
    minutesToDatetime ⟨2015, 10, 1, 0⟩ (1 / 600) = .ok "2015-10-01 00:00:00.100000".toList ∧
    datetimeToMinutes ⟨2015, 10, 1, 0⟩ "2015-10-01 00:00:00.100000".toList
      = .error "ValueError" := by
  constructor <;> decide +kernel

/-! ## hhmm -/

/-- **C42** (hhmm).  A time of four digits `hhmm` with less than sixty minutes is
turned into the right number of minutes, and the minutes back into the number with
these four digits. -/
theorem C42_hhmm (h m : ℕ) (hh : h < 100) (hm : m < 60) :
    hhmmToMinutes (.text (pad h 2 ++ pad m 2)) = .ok ((60 * h + m : ℕ) : ℚ) ∧
    minutesToHhmm ((60 * h + m : ℕ) : ℚ) = .ok (.num ((100 * h + m : ℕ) : ℚ)) := by
  have lh := length_pad h 2 (by decide) (by omega)
  have lm := length_pad m 2 (by decide) (by omega)
  constructor
  · have h1 : (pad h 2 ++ pad m 2).take 2 = pad h 2 := List.take_left' lh
    have h2 : (pad h 2 ++ pad m 2).drop 2 = pad m 2 := List.drop_left' lh
    simp only [hhmmToMinutes, h1, h2, parseNat_pad]
    congr 2
    ring
  · have hf : ⌊((60 * h + m : ℕ) : ℚ) / 60⌋ = (h : ℤ) := by
      rw [Int.floor_eq_iff]
      have : (m : ℚ) < 60 := by exact_mod_cast hm
      have : (0 : ℚ) ≤ m := by positivity
      push_cast
      constructor <;> linarith
    have hg : ⌊((60 * h + m : ℕ) : ℚ) - 60 * ((h : ℤ) : ℚ)⌋ = (m : ℤ) := by
      have : ((60 * h + m : ℕ) : ℚ) - 60 * ((h : ℤ) : ℚ) = ((m : ℤ) : ℚ) := by push_cast; ring
      rw [this, Int.floor_intCast]
    have hpad : ∀ n, n < 100 →
        (if (natStr n).length = 1 then '0' :: natStr n else natStr n) = pad n 2 := by
      intro n hn
      have h1 : (natStr n).length ≤ 2 :=
        (Nat.length_toDigits_le_iff (b := 10) (n := n) (by decide) (by decide)).2 hn
      have h0 : (natStr n) ≠ [] := by simp [natStr]
      have h2 : 0 < (natStr n).length := List.length_pos_iff.2 h0
      split_ifs with h3
      · simp [pad, h3]
      · have : (natStr n).length = 2 := by omega
        simp [pad, this]
    simp only [minutesToHhmm, hf, hg, Int.toNat_natCast, hpad h hh, hpad m (by omega)]
    have hp : parseNat (pad h 2 ++ pad m 2) = .ok (100 * h + m) := by
      have ph := parseNat_pad h 2
      have pm := parseNat_pad m 2
      simp only [parseNat] at ph pm ⊢
      split_ifs at ph pm with g1 g2
      injection ph with ph
      injection pm with pm
      rw [if_pos]
      · congr 1
        rw [Nat.ofDigitChars_append, ph, Nat.ofDigitChars_eq_ofDigitChars_zero, pm, lm]
      · refine ⟨by simp [g1.1], ?_⟩
        rw [List.all_append, g1.2, g2.2]; rfl
    rw [hp]

example : hhmmToMinutes (.text "0830".toList) = .ok 510 := by decide +kernel

/-- **C42** (hhmm, violated in the other direction).  What `convert_times_from_
minutes_to_hhmm` returns is never accepted by `convert_times_from_hhmm_to_minutes`:
it returns numbers, and the other function slices text. -/
theorem C42_hhmm_back_violated (x : ℚ) (v : Val) (h : minutesToHhmm x = .ok v) :
    ∃ e, hhmmToMinutes v = .error e := by
  simp only [minutesToHhmm] at h
  split at h
  · cases h
  · injection h with h
    subst h
    exact ⟨_, rfl⟩

example : ∃ v, minutesToHhmm ((60 * 8 + 30 : ℕ) : ℚ) = .ok v :=
  ⟨_, (C42_hhmm 8 30 (by decide) (by decide)).2⟩

end TimeUtils
