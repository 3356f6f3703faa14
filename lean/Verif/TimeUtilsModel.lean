import Mathlib.Data.Rat.Floor
import Mathlib.Algebra.Order.Round

/-!
# Calendar and clock conversions

Models `topoflow/utils/time_utils.py`: datetime strings, offsets since an origin,
month differences, and the conversions between "hhmm" times and minutes.

The Python library underneath (`datetime`, `dateutil.relativedelta`) is modelled
too: dates are proleptic Gregorian dates with years 1 to 9999, converted to and
from ordinals with the algorithms of CPython's `datetime.py` (`_ymd2ord`,
`_ord2ymd`).  Offsets are exact rational numbers instead of doubles, times of
day are whole microseconds.  Text is a list of characters.
-/

set_option autoImplicit false

namespace TimeUtils

/-- Used in the model of time_utils.py:280. -/
abbrev Text := List Char

/-! ## The Python calendar -/

/-- `datetime._is_leap`, behind the calendar arithmetic of time_utils.py:330-436. -/
def isLeap (y : ℕ) : Bool := y % 4 = 0 ∧ (y % 100 ≠ 0 ∨ y % 400 = 0)

/-- `datetime._days_before_year`, behind time_utils.py:330-436. -/
def daysBeforeYear (y : ℕ) : ℕ :=
  let p := y - 1
  p * 365 + p / 4 - p / 100 + p / 400

/-- `datetime._days_in_month`, behind time_utils.py:263, 273, 435. -/
def daysInMonth (y m : ℕ) : ℕ :=
  if m = 2 then (if isLeap y then 29 else 28)
  else if m = 4 ∨ m = 6 ∨ m = 9 ∨ m = 11 then 30 else 31

/-- The table `datetime._DAYS_BEFORE_MONTH`, behind time_utils.py:330-436. -/
def dbm (m : ℕ) : ℕ := [0, 0, 31, 59, 90, 120, 151, 181, 212, 243, 273, 304, 334].getD m 0

/-- The table `datetime._DAYS_IN_MONTH`, behind time_utils.py:330-436. -/
def dim (m : ℕ) : ℕ := [0, 31, 28, 31, 30, 31, 30, 31, 31, 30, 31, 30, 31].getD m 0

/-- `datetime._ymd2ord`, behind time_utils.py:337. -/
def ymd2ord (y m d : ℕ) : ℕ :=
  daysBeforeYear y + (dbm m + if 2 < m ∧ isLeap y then 1 else 0) + d

/-- `datetime._ord2ymd`, behind time_utils.py:435. -/
def ord2ymd (n : ℕ) : ℕ × ℕ × ℕ :=
  let n := n - 1
  let n400 := n / 146097
  let n := n % 146097
  let n100 := n / 36524
  let n := n % 36524
  let n4 := n / 1461
  let n := n % 1461
  let n1 := n / 365
  let n := n % 365
  let year := n400 * 400 + 1 + (n100 * 100 + n4 * 4 + n1)
  if n1 = 4 ∨ n100 = 4 then (year - 1, 12, 31)
  else
    let leap : Bool := n1 = 3 ∧ (n4 ≠ 24 ∨ n100 = 3)
    let month := (n + 50) / 32
    let preceding := dbm month + if 2 < month ∧ leap then 1 else 0
    if n < preceding then
      let month' := month - 1
      let preceding' := preceding - (dim month' + if month' = 2 ∧ leap then 1 else 0)
      (year, month', n - preceding' + 1)
    else (year, month, n - preceding + 1)

/-- A `datetime.datetime`: date and microseconds of the day,
as passed around in time_utils.py:330-436. -/
structure DT where
  year : ℕ
  month : ℕ
  day : ℕ
  us : ℕ
deriving DecidableEq, Repr

/-- Microseconds per day, for the differences of time_utils.py:337. -/
def dayUs : ℕ := 86400000000

/-- The constructor `datetime.datetime(y, m, d, h, mi, s)` (time_utils.py:263, 273). -/
def mkDT (y m d h mi s : ℕ) : Except String DT :=
  if 1 ≤ y ∧ y ≤ 9999 ∧ 1 ≤ m ∧ m ≤ 12 ∧ 1 ≤ d ∧ d ≤ daysInMonth y m ∧ h < 24 ∧ mi < 60 ∧ s < 60
  then .ok ⟨y, m, d, ((h * 60 + mi) * 60 + s) * 1000000⟩
  else .error "ValueError"

/-- Microseconds since day 0, for the differences of time_utils.py:337. -/
def DT.abs (t : DT) : ℤ := (ymd2ord t.year t.month t.day : ℤ) * dayUs + t.us

/-- `datetime + timedelta`, with the time difference in microseconds
(time_utils.py:435). -/
def addUs (t : DT) (us : ℤ) : Except String DT :=
  let total := t.abs + us
  let o := total / dayUs
  if 1 ≤ o ∧ o ≤ 3652059 then
    let r := ord2ymd o.toNat
    .ok ⟨r.1, r.2.1, r.2.2, (total % dayUs).toNat⟩
  else .error "OverflowError: date value out of range"

/-- The rounding of `datetime.timedelta` to whole microseconds (half to even),
behind time_utils.py:373-435. -/
def roundUs (x : ℚ) : ℤ :=
  if Int.fract x < 1 / 2 then ⌊x⌋
  else if 1 / 2 < Int.fract x then ⌊x⌋ + 1
  else if ⌊x⌋ % 2 = 0 then ⌊x⌋ else ⌊x⌋ + 1

/-- The divisions of `relativedelta._fix` that bring months to less than 12:
(years, months), both with the sign of the argument; behind time_utils.py:378. -/
def fixMonths (m : ℤ) : ℤ × ℤ :=
  if 11 < |m| then (m.sign * (|m| / 12), m.sign * (|m| % 12)) else (0, m)

/-- `datetime + relativedelta(years=.., months=..)`: `relativedelta.__radd__`
(time_utils.py:435). -/
def addYM (t : DT) (years months : ℤ) : Except String DT :=
  let year := (t.year : ℤ) + years
  let month := (t.month : ℤ) + months
  let ym : ℤ × ℤ :=
    if 12 < month then (year + 1, month - 12)
    else if month < 1 then (year - 1, month + 12)
    else (year, month)
  if 1 ≤ ym.1 ∧ ym.1 ≤ 9999 then
    let y := ym.1.toNat
    let m := ym.2.toNat
    .ok ⟨y, m, min (daysInMonth y m) t.day, t.us⟩
  else .error "ValueError"

/-! ## Offsets since an origin -/

/-- The table of seconds per unit (time_utils.py:343-345); `none` is a `KeyError`. -/
def secsPerUnit (units : String) : Option ℚ :=
  if units = "years" then some 31536000
  else if units = "weeks" then some 604800
  else if units = "days" then some 86400
  else if units = "hours" then some 3600
  else if units = "minutes" then some 60
  else if units = "seconds" then some 1
  else none

/-- `get_time_since_from_datetime` (time_utils.py:330-350). -/
def timeSince (origin t : DT) (units : String) : Except String ℚ :=
  match secsPerUnit units with
  | none => .error "KeyError"
  | some s => .ok (((t.abs - origin.abs : ℤ) : ℚ) / 1000000 / s)

/-- `get_datetime_from_time_since` (time_utils.py:354-436).  `relativedelta` takes
whole numbers of years and months only; the other units are added as a
`timedelta`.  An unknown unit returns a variable that has no value yet. -/
def fromTimeSince (origin : DT) (x : ℚ) (units : String) : Except String DT :=
  if units = "years" then
    if x = ⌊x⌋ then addYM origin ⌊x⌋ 0 else .error "ValueError"
  else if units = "months" then
    if x = ⌊x⌋ then addYM origin (fixMonths ⌊x⌋).1 (fixMonths ⌊x⌋).2 else .error "ValueError"
  else if units = "weeks" then addUs origin (roundUs (x * 7 * 86400 * 1000000))
  else if units = "days" then addUs origin (roundUs (x * 86400 * 1000000))
  else if units = "hours" then addUs origin (roundUs (x * 3600 * 1000000))
  else if units = "minutes" then addUs origin (roundUs (x * 60 * 1000000))
  else if units = "seconds" then addUs origin (roundUs (x * 1000000))
  else .error "UnboundLocalError"

/-- `get_month_difference` (time_utils.py:440-464). -/
def monthDifference (a b : DT) : ℤ := ((b.year : ℤ) - a.year) * 12 - a.month + b.month

/-! ## Strings -/

/-- `str(n)` for a natural number (time_utils.py:280, 495, 498). -/
def natStr (n : ℕ) : Text := Nat.toDigits 10 n

/-- `int(s)` (time_utils.py:313-315, 323-325, 501).  Simplified: only plain digits are accepted (Python also takes signs,
surrounding blanks and underscores). -/
def parseNat (s : Text) : Except String ℕ :=
  if s ≠ [] ∧ s.all Char.isDigit then .ok (Nat.ofDigitChars 10 s 0) else .error "ValueError"

/-- `pad_with_zeros` (time_utils.py:278-284) for a natural number. -/
def pad (n len : ℕ) : Text := List.replicate (len - (natStr n).length) '0' ++ natStr n

/-- `get_datetime_str` (time_utils.py:216-228). -/
def datetimeStr (y m d h mi s : ℕ) : Text :=
  natStr y ++ '-' :: (pad m 2 ++ '-' :: pad d 2) ++
    ' ' :: (pad h 2 ++ ':' :: (pad mi 2 ++ ':' :: pad s 2))

/-- `s.split(c)` (time_utils.py:295, 312, 322). -/
def splitOn (c : Char) : Text → List Text
  | [] => [[]]
  | x :: xs =>
    if x = c then [] :: splitOn c xs
    else
      match splitOn c xs with
      | [] => [[x]]
      | w :: ws => (x :: w) :: ws

/-- The three numbers of `split_date_str` and `split_time_str`
(time_utils.py:310-326); further parts are ignored. -/
def threeNumbers (c : Char) (s : Text) : Except String (ℕ × ℕ × ℕ) :=
  match splitOn c s with
  | a :: rest =>
    match parseNat a with
    | .error e => .error e
    | .ok x =>
      match rest with
      | [] => .error "IndexError"
      | b :: rest =>
        match parseNat b with
        | .error e => .error e
        | .ok y =>
          match rest with
          | [] => .error "IndexError"
          | w :: _ =>
            match parseNat w with
            | .error e => .error e
            | .ok z => .ok (x, y, z)
  | [] => .error "IndexError"

/-- `get_datetime_obj_from_one_str` (time_utils.py:268-274) with
`split_datetime_str` (288-302). -/
def fromOneStr (s : Text) : Except String DT :=
  match splitOn ' ' s with
  | date :: time :: _ =>
    match threeNumbers '-' date with
    | .error e => .error e
    | .ok (y, m, d) =>
      match threeNumbers ':' time with
      | .error e => .error e
      | .ok (h, mi, sec) => mkDT y m d h mi sec
  | _ => .error "IndexError"

/-- `standardize_datetime_str` (time_utils.py:232-241): the first ten and the last
eight characters. -/
def standardize (s : Text) : Text := s.take 10 ++ ' ' :: s.drop (s.length - 8)

/-- `str(datetime_obj)`: `YYYY-MM-DD HH:MM:SS`, followed by `.ffffff` unless the
microseconds are zero (the assignment of time_utils.py:542 to a string array). -/
def strDT (t : DT) : Text :=
  let s := t.us / 1000000
  pad t.year 4 ++ '-' :: (pad t.month 2 ++ '-' :: pad t.day 2) ++
    ' ' :: (pad (s / 3600) 2 ++ ':' :: (pad (s / 60 % 60) 2 ++ ':' :: pad (s % 60) 2)) ++
    (if t.us % 1000000 = 0 then [] else '.' :: pad (t.us % 1000000) 6)

/-- One turn of `convert_times_from_datetime_to_minutes` (time_utils.py:507-527). -/
def datetimeToMinutes (origin : DT) (s : Text) : Except String ℚ :=
  match fromOneStr (standardize s) with
  | .error e => .error e
  | .ok t => timeSince origin t "minutes"

/-- One turn of `convert_times_from_minutes_to_datetime` (time_utils.py:531-545). -/
def minutesToDatetime (origin : DT) (x : ℚ) : Except String Text :=
  match fromTimeSince origin x "minutes" with
  | .error e => .error e
  | .ok t => .ok (strDT t)

/-! ## hhmm -/

/-- An element of a list of times: text, or a float (time_utils.py:469, 487). -/
inductive Val where
  | text (s : Text)
  | num (x : ℚ)

/-- One turn of `convert_times_from_hhmm_to_minutes` (time_utils.py:477-481).  A
float cannot be sliced. -/
def hhmmToMinutes : Val → Except String ℚ
  | .num _ => .error "IndexError: invalid index to scalar variable"
  | .text s =>
    match parseNat (s.take 2) with
    | .error e => .error e
    | .ok h =>
      match parseNat (s.drop 2) with
      | .error e => .error e
      | .ok m => .ok ((h * 60 + m : ℕ) : ℚ)

/-- One turn of `convert_times_from_minutes_to_hhmm` (time_utils.py:491-501), for
times `≥ 0`.  The result is a float. -/
def minutesToHhmm (x : ℚ) : Except String Val :=
  let hour := ⌊x / 60⌋.toNat
  let min := ⌊x - 60 * ⌊x / 60⌋⌋.toNat
  let hh := if (natStr hour).length = 1 then '0' :: natStr hour else natStr hour
  let mm := if (natStr min).length = 1 then '0' :: natStr min else natStr min
  match parseNat (hh ++ mm) with
  | .error e => .error e
  | .ok n => .ok (.num n)

end TimeUtils
