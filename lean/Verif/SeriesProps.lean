import Verif.SeriesModel
import Verif.TimeUtilsProps
import Verif.ParamProps
import Mathlib.Data.List.TakeWhile
import Mathlib.Tactic.Linarith
import Mathlib.Tactic.FieldSimp
import Mathlib.Tactic.Ring

/-!
# Series of the calibration: properties C206-C210
-/

set_option autoImplicit false

namespace Series

open TimeUtils (Text Val)

/-! ### C206: reading -/

/-- What a data line says: the word of the time column (as text or as a number) and the number in the value column. -/
def Says (num : Text → Except String ℚ) (asText : Bool) (delim : Option Char) (tc vc : ℕ) (line : Text)
    (row : Val × ℚ) : Prop :=
  ∃ wt wv, (splitLine delim line)[tc]? = some wt ∧ (splitLine delim line)[vc]? = some wv ∧ num wv = .ok row.2 ∧
    (if asText = true then row.1 = .text wt else ∃ q, num wt = .ok q ∧ row.1 = .num q)

/-- The line has both columns. -/
def HasColumns (delim : Option Char) (tc vc : ℕ) (line : Text) : Prop :=
  tc < (splitLine delim line).length ∧ vc < (splitLine delim line).length

instance (delim : Option Char) (tc vc : ℕ) (line : Text) : Decidable (HasColumns delim tc vc line) :=
  inferInstanceAs (Decidable (_ ∧ _))

theorem readLine_iff (num : Text → Except String ℚ) (asText : Bool) (delim : Option Char) (tc vc : ℕ) (line : Text)
    (row : Val × ℚ) (h : HasColumns delim tc vc line) :
    readLine num asText tc vc (splitLine delim line) = .ok row ↔ Says num asText delim tc vc line row := by
  obtain ⟨h1, h2⟩ := h
  have e1 : (splitLine delim line).getD tc [] = (splitLine delim line)[tc] := by
    rw [List.getD_eq_getElem?_getD, List.getElem?_eq_getElem h1]; rfl
  have e2 : (splitLine delim line).getD vc [] = (splitLine delim line)[vc] := by
    rw [List.getD_eq_getElem?_getD, List.getElem?_eq_getElem h2]; rfl
  unfold readLine Says
  rw [e1, e2, List.getElem?_eq_getElem h1, List.getElem?_eq_getElem h2]
  obtain ⟨t, v⟩ := row
  cases asText
  · cases hq : num (splitLine delim line)[tc] with
    | error e => simp [bind, Except.bind, hq]
    | ok q =>
      cases hv : num (splitLine delim line)[vc] with
      | error e => simp [bind, Except.bind, hv]
      | ok x =>
        simp [bind, Except.bind, hq, hv]
        constructor
        · rintro ⟨h1, h2⟩; exact ⟨h2, h1.symm⟩
        · rintro ⟨h1, h2⟩; exact ⟨h2.symm, h1⟩
  · cases hv : num (splitLine delim line)[vc] with
    | error e => simp [bind, Except.bind, hv]
    | ok x =>
      simp [bind, Except.bind, hv]
      constructor
      · rintro ⟨h1, h2⟩; exact ⟨h2, h1.symm⟩
      · rintro ⟨h1, h2⟩; exact ⟨h2.symm, h1⟩

/-- **C206** The series holds, in order, what every data line says, up to the first line that lacks a column; the
reading fails exactly when one of these lines has something that is not a number. -/
theorem C206_read (num : Text → Except String ℚ) (asText : Bool) (delim : Option Char) (hdr tc vc : ℕ)
    (file : List Text) (rows : List (Val × ℚ)) :
    readSeries num asText delim hdr tc vc file = .ok rows ↔
      List.Forall₂ (Says num asText delim tc vc)
        ((file.drop hdr).takeWhile fun line => decide (HasColumns delim tc vc line)) rows := by
  unfold readSeries
  generalize file.drop hdr = body
  induction body generalizing rows with
  | nil => simp [readRows, eq_comm]
  | cons line rest ih =>
    by_cases hc : HasColumns delim tc vc line
    · have hn : ¬ ((splitLine delim line).length ≤ tc ∨ (splitLine delim line).length ≤ vc) := by
        have h1 := hc.1
        have h2 := hc.2
        omega
      rw [List.takeWhile_cons_of_pos (by simpa using hc)]
      simp only [readRows, if_neg hn]
      have hl := readLine_iff num asText delim tc vc line
      cases hr : readLine num asText tc vc (splitLine delim line) with
      | error e =>
        simp only [bind, Except.bind]
        constructor
        · intro h; cases h
        · intro h
          obtain ⟨r, rs, h1, -, -⟩ := List.forall₂_cons_left_iff.1 h
          rw [← hl r hc, hr] at h1
          cases h1
      | ok r =>
        cases hrs : readRows num asText delim tc vc rest with
        | error e =>
          simp only [bind, Except.bind]
          constructor
          · intro h; cases h
          · intro h
            obtain ⟨r', rs, -, h2, -⟩ := List.forall₂_cons_left_iff.1 h
            rw [← ih rs, hrs] at h2
            cases h2
        | ok rs =>
          simp only [bind, Except.bind, Except.ok.injEq]
          constructor
          · intro h
            subst h
            exact List.Forall₂.cons ((hl r hc).1 hr) ((ih rs).1 hrs)
          · intro h
            obtain ⟨r', rs', h1, h2, h3⟩ := List.forall₂_cons_left_iff.1 h
            rw [← hl r' hc, hr, Except.ok.injEq] at h1
            rw [← ih rs', hrs, Except.ok.injEq] at h2
            rw [h3, h1, h2]
    · have hn : (splitLine delim line).length ≤ tc ∨ (splitLine delim line).length ≤ vc := by
        unfold HasColumns at hc
        omega
      rw [List.takeWhile_cons_of_neg (by simpa using hc)]
      simp only [readRows, if_pos hn, Except.ok.injEq, List.forall₂_nil_left_iff]
      exact eq_comm

/-- **C206** So no line is lost when all have both columns, and everything from the first one that has not (such as a
blank line) is lost without an error. -/
theorem C206_lost (num : Text → Except String ℚ) (asText : Bool) (delim : Option Char) (hdr tc vc : ℕ)
    (header before after : List Text) (line : Text) (hh : header.length = hdr)
    (hb : ∀ l ∈ before, HasColumns delim tc vc l) (rows : List (Val × ℚ)) :
    (readSeries num asText delim hdr tc vc (header ++ before) = .ok rows →
      List.Forall₂ (Says num asText delim tc vc) before rows) ∧
    (¬ HasColumns delim tc vc line → readSeries num asText delim hdr tc vc (header ++ before ++ line :: after) =
      readSeries num asText delim hdr tc vc (header ++ before)) := by
  have hd1 : (header ++ before).drop hdr = before := by rw [← hh, List.drop_left]
  have hd2 : (header ++ before ++ line :: after).drop hdr = before ++ line :: after := by
    rw [← hh, List.append_assoc, List.drop_left]
  have ht : before.takeWhile (fun line => decide (HasColumns delim tc vc line)) = before := by
    rw [List.takeWhile_eq_self_iff]
    intro l hl
    simpa using hb l hl
  constructor
  · intro h
    have := (C206_read num asText delim hdr tc vc _ rows).1 h
    rwa [hd1, ht] at this
  · intro hl
    unfold readSeries
    rw [hd1, hd2]
    clear hd1 hd2 ht
    induction before with
    | nil =>
      have hn : (splitLine delim line).length ≤ tc ∨ (splitLine delim line).length ≤ vc := by
        unfold HasColumns at hl
        omega
      simp only [List.nil_append, readRows, if_pos hn]
    | cons b bs ih =>
      have := ih (fun l hl => hb l (List.mem_cons_of_mem _ hl))
      simp only [List.cons_append, readRows, this]

/-! ### C207: times -/

theorem mapE_iff {α β : Type} (f : α → Except String β) (xs : List α) (ys : List β) :
    mapE f xs = .ok ys ↔ List.Forall₂ (fun x y => f x = .ok y) xs ys := by
  induction xs generalizing ys with
  | nil => simp [mapE, eq_comm]
  | cons x xs ih =>
    simp only [mapE]
    cases hx : f x with
    | error e =>
      simp only [bind, Except.bind]
      constructor
      · intro h; cases h
      · intro h
        obtain ⟨r, rs, h1, -, -⟩ := List.forall₂_cons_left_iff.1 h
        rw [hx] at h1; cases h1
    | ok y =>
      cases hxs : mapE f xs with
      | error e =>
        simp only [bind, Except.bind]
        constructor
        · intro h; cases h
        · intro h
          obtain ⟨r, rs, -, h2, -⟩ := List.forall₂_cons_left_iff.1 h
          rw [← ih, hxs] at h2; cases h2
      | ok ys' =>
        simp only [bind, Except.bind, Except.ok.injEq]
        constructor
        · intro h; subst h; exact List.Forall₂.cons hx ((ih _).1 hxs)
        · intro h
          obtain ⟨r, rs, h1, h2, h3⟩ := List.forall₂_cons_left_iff.1 h
          rw [hx, Except.ok.injEq] at h1
          rw [← ih, hxs, Except.ok.injEq] at h2
          rw [h3, h1, h2]

theorem mapE_map {α β γ : Type} (f : α → Except String β) (g : γ → α) (r : γ → β) (xs : List γ)
    (h : ∀ x ∈ xs, f (g x) = .ok (r x)) : mapE f (xs.map g) = .ok (xs.map r) := by
  rw [mapE_iff]
  induction xs with
  | nil => exact List.Forall₂.nil
  | cons x xs ih =>
    exact List.Forall₂.cons (h x (by simp)) (ih fun y hy => h y (List.mem_cons_of_mem _ hy))

/-- The clock time `h:m` as `hhmm`. -/
def hhmm (x : ℕ × ℕ) : Val := .text (TimeUtils.pad x.1 2 ++ TimeUtils.pad x.2 2)

/-- **C207** Times of day become the minutes since the first one (negative after midnight, since the day is not
known). -/
theorem C207_hhmm (start : Text) (x : ℕ × ℕ) (xs : List (ℕ × ℕ)) (h : ∀ y ∈ x :: xs, y.1 < 100 ∧ y.2 < 60) :
    convertTimes "hhmm" start ((x :: xs).map hhmm) =
      .ok ((x :: xs).map fun y => ((60 * y.1 + y.2 : ℕ) : ℚ) - ((60 * x.1 + x.2 : ℕ) : ℚ)) := by
  have hm := mapE_map TimeUtils.hhmmToMinutes hhmm (fun y => ((60 * y.1 + y.2 : ℕ) : ℚ)) (x :: xs)
    (fun y hy => (TimeUtils.C42_hhmm y.1 y.2 (h y hy).1 (h y hy).2).1)
  unfold convertTimes
  rw [if_pos rfl, hm]
  simp only [List.map_cons, List.map_map, Function.comp_def]

/-- The date as `YYYY-MM-DD`. -/
def dateText (t : TimeUtils.DT) : Text :=
  TimeUtils.pad t.year 4 ++ '-' :: (TimeUtils.pad t.month 2 ++ '-' :: TimeUtils.pad t.day 2)

/-- The clock time as `HH:MM:SS`. -/
def clockText (t : TimeUtils.DT) : Text :=
  TimeUtils.pad (t.us / 1000000 / 3600) 2 ++ ':' :: (TimeUtils.pad (t.us / 1000000 / 60 % 60) 2 ++
    ':' :: TimeUtils.pad (t.us / 1000000 % 60) 2)

theorem dateText_length {t : TimeUtils.DT} (h : t.Ok) : (dateText t).length = 10 := by
  obtain ⟨⟨hy1, hy2, hm1, hm2, hd1, hd2⟩, -⟩ := h
  have hd31 := TimeUtils.daysInMonth_le t.year t.month
  simp only [dateText, List.length_append, List.length_cons, TimeUtils.length_pad t.year 4 (by decide) (by omega),
    TimeUtils.length_pad t.month 2 (by decide) (by omega), TimeUtils.length_pad t.day 2 (by decide) (by omega)]

theorem midnight_minutes (o t : TimeUtils.DT) (h : t.Ok) (h0 : t.us = 0) :
    TimeUtils.datetimeToMinutes o ((dateText t ++ " 00:00:00".toList).take 19) =
      .ok (((t.abs - o.abs : ℤ) : ℚ) / 1000000 / 60) := by
  have hl := dateText_length h
  rw [List.take_of_length_le (by rw [List.length_append, hl]; decide)]
  have := TimeUtils.C63_separator o t h (by rw [h0]) [' ']
  rw [h0] at this
  rw [← this]
  congr 1
  show dateText t ++ _ = _
  rw [List.append_assoc]
  congr 1

theorem fromOneStr_midnight (t : TimeUtils.DT) (h : t.Ok) (h0 : t.us = 0) :
    TimeUtils.fromOneStr ((dateText t ++ " 00:00:00".toList).take 19) = .ok t := by
  have hl := dateText_length h
  rw [List.take_of_length_le (by rw [List.length_append, hl]; decide)]
  have := TimeUtils.fromOneStr_standardize t h (by rw [h0]) [' ']
  have hc : (TimeUtils.pad (t.us / 1000000 / 3600) 2 ++ ':' :: (TimeUtils.pad (t.us / 1000000 / 60 % 60) 2 ++
      ':' :: TimeUtils.pad (t.us / 1000000 % 60) 2)) = "00:00:00".toList := by
    rw [h0]; decide
  rw [hc] at this
  have hj := TimeUtils.take_drop_join (dateText t) "00:00:00".toList hl (by decide) [' ']
  change TimeUtils.fromOneStr (TimeUtils.standardize (dateText t ++ [' '] ++ "00:00:00".toList)) = _ at this
  rw [hj] at this
  exact this

/-- **C207** Dates become the minutes from the first one, whatever start is configured. -/
theorem C207_date (start : Text) (t : TimeUtils.DT) (ts : List TimeUtils.DT)
    (h : ∀ s ∈ t :: ts, s.Ok ∧ s.us = 0) :
    convertTimes "date" start ((t :: ts).map fun s => .text (dateText s)) =
      .ok ((t :: ts).map fun s => ((s.abs - t.abs : ℤ) : ℚ) / 1000000 / 60) := by
  have hm := mapE_map asTextE (fun s => Val.text (dateText s)) dateText (t :: ts) (fun _ _ => rfl)
  unfold convertTimes
  rw [if_neg (by decide), if_pos rfl, hm]
  simp only [List.map_cons, List.headD_cons, fromOneStr_midnight t (h t (by simp)).1 (h t (by simp)).2]
  have := mapE_map (TimeUtils.datetimeToMinutes t) (fun s => (dateText s ++ " 00:00:00".toList).take 19)
    (fun s => ((s.abs - t.abs : ℤ) : ℚ) / 1000000 / 60) (t :: ts) (fun s hs => midnight_minutes t s (h s hs).1 (h s hs).2)
  simpa only [List.map_cons, List.map_map, Function.comp_def] using this

/-- **C207** Datetimes, with any separator between date and clock time, become the minutes since the configured
start. -/
theorem C207_datetime (o : TimeUtils.DT) (sep : Text) (start : Text) (hstart : TimeUtils.fromOneStr start = .ok o)
    (ts : List TimeUtils.DT) (h : ∀ s ∈ ts, s.Ok ∧ s.us % 1000000 = 0) :
    convertTimes "datetime" start (ts.map fun s => .text (dateText s ++ sep ++ clockText s)) =
      .ok (ts.map fun s => ((s.abs - o.abs : ℤ) : ℚ) / 1000000 / 60) := by
  have hm := mapE_map asTextE (fun s => Val.text (dateText s ++ sep ++ clockText s))
    (fun s => dateText s ++ sep ++ clockText s) ts (fun _ _ => rfl)
  unfold convertTimes
  rw [if_neg (by decide), if_neg (by decide), if_pos rfl, hm]
  simp only [hstart]
  exact mapE_map _ _ _ ts fun s hs => TimeUtils.C63_separator o s (h s hs).1 (h s hs).2 sep

/-- **C207** Numbers are taken as they are. -/
theorem C207_numbers (otf : String) (start : Text) (xs : List ℚ) (h : otf ∉ ["hhmm", "date", "datetime"]) :
    convertTimes otf start (xs.map Val.num) = .ok xs := by
  simp only [List.mem_cons, List.not_mem_nil, or_false, not_or] at h
  unfold convertTimes
  rw [if_neg h.1, if_neg h.2.1, if_neg h.2.2]
  have := mapE_map asNumE Val.num id xs (fun _ _ => rfl)
  simpa using this

/-- Non-vacuity: ten to midnight, five to, and ten past. -/
example : convertTimes "hhmm" [] [.text "2350".toList, .text "2355".toList, .text "0010".toList] =
    .ok [0, 5, -1420] := by
  have := C207_hhmm [] (23, 50) [(23, 55), (0, 10)] (by decide)
  have e1 : [Val.text "2350".toList, .text "2355".toList, .text "0010".toList] =
      [(23, 50), (23, 55), (0, 10)].map hhmm := by
    simp only [List.map_cons, List.map_nil, hhmm]
    rfl
  rw [e1, this]
  norm_num

/-! ### C208: interpolation -/

theorem below_iff {xs : List ℚ} (h : xs.Pairwise (· < ·)) (t : ℚ) (k : ℕ) (hk : k < xs.length) :
    k < below xs t ↔ xs[k] < t := by
  induction xs generalizing k with
  | nil => simp at hk
  | cons x xs ih =>
    obtain ⟨h1, h2⟩ := List.pairwise_cons.1 h
    by_cases hx : x < t
    · have : below (x :: xs) t = below xs t + 1 := by
        unfold below; rw [List.filter_cons_of_pos (by simpa using hx)]; rfl
      rw [this]
      cases k with
      | zero => simp [hx]
      | succ k =>
        simp only [List.getElem_cons_succ, Nat.add_lt_add_iff_right]
        exact ih h2 k (by simpa using hk)
    · have hz : below (x :: xs) t = 0 := by
        unfold below
        rw [List.length_eq_zero_iff, List.filter_eq_nil_iff]
        intro y hy
        rcases List.mem_cons.1 hy with rfl | hy
        · simpa using hx
        · have := h1 y hy
          simp only [decide_eq_true_eq, not_lt]
          linarith [not_lt.1 hx]
      rw [hz]
      simp only [Nat.not_lt_zero, false_iff, not_lt]
      cases k with
      | zero => simpa using not_lt.1 hx
      | succ k =>
        have hk' : k < xs.length := by simpa using hk
        have := h1 xs[k] (List.getElem_mem hk')
        simp only [List.getElem_cons_succ]
        linarith [not_lt.1 hx]

theorem below_le (xs : List ℚ) (t : ℚ) : below xs t ≤ xs.length := List.length_filter_le _ _

theorem getD_lt {xs : List ℚ} {k : ℕ} (hk : k < xs.length) : xs.getD k 0 = xs[k] := by
  rw [List.getD_eq_getElem?_getD, List.getElem?_eq_getElem hk]; rfl

/-- The segment used for a time. -/
theorem segment {xs : List ℚ} (h : xs.Pairwise (· < ·)) (h2 : 2 ≤ xs.length) (t : ℚ) (k : ℕ)
    (hk : k + 1 < xs.length) (hlo : k = 0 ∨ xs[k] < t) (hhi : k + 2 = xs.length ∨ t ≤ xs[k + 1]) :
    max 1 (min (below xs t) (xs.length - 1)) = k + 1 := by
  have hb := below_le xs t
  have h1 := below_iff h t k (by omega)
  have h2' := below_iff h t (k + 1) hk
  have hlo' : k = 0 ∨ k + 1 ≤ below xs t := by
    rcases hlo with h | h
    · exact Or.inl h
    · exact Or.inr (h1.2 h)
  have hhi' : k + 2 = xs.length ∨ below xs t ≤ k + 1 := by
    rcases hhi with h | h
    · exact Or.inl h
    · right
      by_contra hc
      exact absurd (h2'.1 (by omega)) (not_lt.2 h)
  omega

/-- **C208** The interpolated observation lies on the straight line through the two observations around the time; before
the first and after the last observation the first and last lines are continued. -/
theorem C208_linear {xs ys : List ℚ} (h : xs.Pairwise (· < ·)) (hy : ys.length = xs.length) (t : ℚ) (k : ℕ)
    (hk : k + 1 < xs.length) (hlo : k = 0 ∨ xs[k] ≤ t) (hhi : k + 2 = xs.length ∨ t ≤ xs[k + 1]) :
    (linearAt xs ys t - ys[k]) * (xs[k + 1] - xs[k]) = (ys[k + 1] - ys[k]) * (t - xs[k]) := by
  have hlt : xs[k] < xs[k + 1] := List.pairwise_iff_getElem.1 h k (k + 1) (by omega) hk (by omega)
  have hne : xs[k + 1] - xs[k] ≠ 0 := by linarith
  by_cases hc : k = 0 ∨ xs[k] < t
  · have hi := segment h (by omega) t k hk hc hhi
    unfold linearAt
    rw [hi]
    simp only [Nat.add_sub_cancel, getD_lt hk, getD_lt (show k < xs.length by omega),
      getD_lt (show k < ys.length by omega), getD_lt (show k + 1 < ys.length by omega)]
    field_simp
    ring
  · push Not at hc
    obtain ⟨hk0, hle⟩ := hc
    have hte : t = xs[k] := by
      rcases hlo with h | h
      · exact absurd h hk0
      · exact le_antisymm hle h
    obtain ⟨j, rfl⟩ : ∃ j, k = j + 1 := ⟨k - 1, by omega⟩
    have hlt2 : xs[j] < xs[j + 1] := List.pairwise_iff_getElem.1 h j (j + 1) (by omega) (by omega) (by omega)
    have hi := segment h (by omega) t j (by omega) (Or.inr (by rw [hte]; exact hlt2)) (Or.inr (by rw [hte]))
    unfold linearAt
    rw [hi]
    simp only [Nat.add_sub_cancel, getD_lt (show j + 1 < xs.length by omega), getD_lt (show j < xs.length by omega),
      getD_lt (show j < ys.length by omega), getD_lt (show j + 1 < ys.length by omega), hte]
    have hne2 : xs[j + 1] - xs[j] ≠ 0 := by linarith
    field_simp
    ring

/-- **C208** At the time of an observation the interpolated value is the observed one, and between two observations it
lies between their values. -/
theorem C208_between {xs ys : List ℚ} (h : xs.Pairwise (· < ·)) (hy : ys.length = xs.length) (h2 : 2 ≤ xs.length) :
    (∀ k (hk : k < xs.length), linearAt xs ys xs[k] = ys[k]) ∧
      ∀ t k (hk : k + 1 < xs.length), xs[k] ≤ t → t ≤ xs[k + 1] →
        min ys[k] ys[k + 1] ≤ linearAt xs ys t ∧ linearAt xs ys t ≤ max ys[k] ys[k + 1] := by
  constructor
  · intro k hk
    by_cases hl : k + 1 < xs.length
    · have hlt : xs[k] < xs[k + 1] := List.pairwise_iff_getElem.1 h k (k + 1) (by omega) hl (by omega)
      have := C208_linear h hy xs[k] k hl (Or.inr le_rfl) (Or.inr hlt.le)
      rw [sub_self xs[k], mul_zero, mul_eq_zero] at this
      rcases this with h | h
      · linarith
      · linarith
    · obtain ⟨j, rfl⟩ : ∃ j, k = j + 1 := ⟨k - 1, by omega⟩
      have hlt : xs[j] < xs[j + 1] := List.pairwise_iff_getElem.1 h j (j + 1) (by omega) hk (by omega)
      have := C208_linear h hy xs[j + 1] j hk (Or.inr hlt.le) (Or.inr le_rfl)
      have hne : xs[j + 1] - xs[j] ≠ 0 := by linarith
      have := mul_right_cancel₀ hne this
      linarith
  · intro t k hk hlo hhi
    have hlt : xs[k] < xs[k + 1] := List.pairwise_iff_getElem.1 h k (k + 1) (by omega) hk (by omega)
    have e := C208_linear h hy t k hk (Or.inr hlo) (Or.inr hhi)
    have hd : 0 < xs[k + 1] - xs[k] := by linarith
    rcases le_total ys[k] ys[k + 1] with hle | hle
    · rw [min_eq_left hle, max_eq_right hle]
      constructor
      · by_contra hc
        push Not at hc
        nlinarith [mul_nonneg (sub_nonneg.2 hle) (sub_nonneg.2 hlo)]
      · by_contra hc
        push Not at hc
        nlinarith [mul_nonneg (sub_nonneg.2 hle) (sub_nonneg.2 hhi)]
    · rw [min_eq_right hle, max_eq_left hle]
      constructor
      · by_contra hc
        push Not at hc
        nlinarith [mul_nonneg (sub_nonneg.2 hle) (sub_nonneg.2 hhi)]
      · by_contra hc
        push Not at hc
        nlinarith [mul_nonneg (sub_nonneg.2 hle) (sub_nonneg.2 hlo)]

theorem midpoints_length : ∀ xs : List ℚ, (midpoints xs).length = xs.length - 1
  | [] => rfl
  | [_] => rfl
  | x :: y :: rest => by
    simp only [midpoints, List.length_cons, midpoints_length (y :: rest)]
    omega

theorem midpoints_get : ∀ (xs : List ℚ) (k : ℕ) (hk : k + 1 < xs.length),
    (midpoints xs)[k]'(by rw [midpoints_length]; omega) = xs[k] / 2 + xs[k + 1] / 2
  | [], k, hk => by simp at hk
  | [_], k, hk => by simp at hk
  | x :: y :: rest, 0, _ => rfl
  | x :: y :: rest, k + 1, hk => by
    have := midpoints_get (y :: rest) k (by simpa using hk)
    simpa [midpoints] using this

theorem midpoints_pairwise {xs : List ℚ} (h : xs.Pairwise (· < ·)) : (midpoints xs).Pairwise (· < ·) := by
  rw [List.pairwise_iff_getElem] at h ⊢
  intro i j hi hj hij
  rw [midpoints_length] at hi hj
  rw [midpoints_get xs i (by omega), midpoints_get xs j (by omega)]
  have h1 := h i j (by omega) (by omega) hij
  have h2 := h (i + 1) (j + 1) (by omega) (by omega) (by omega)
  linarith

/-- **C208** With the method `nearest` the value is that of an observation nearest in time. -/
theorem C208_nearest {xs ys : List ℚ} (h : xs.Pairwise (· < ·)) (hy : ys.length = xs.length) (h1 : 1 ≤ xs.length)
    (t : ℚ) : ∃ k, ∃ hk : k < xs.length, nearestAt xs ys t = ys[k] ∧
      ∀ j (hj : j < xs.length), |xs[k] - t| ≤ |xs[j] - t| := by
  have hm := midpoints_pairwise h
  have hl := midpoints_length xs
  have hb := below_le (midpoints xs) t
  have hk : below (midpoints xs) t < xs.length := by omega
  refine ⟨below (midpoints xs) t, hk, ?_, ?_⟩
  · unfold nearestAt
    exact getD_lt (by omega)
  · intro j hj
    generalize hkd : below (midpoints xs) t = k at hk hb
    have mono : ∀ a b (ha : a < xs.length) (hb : b < xs.length), a < b → xs[a] < xs[b] :=
      fun a b ha hb hab => List.pairwise_iff_getElem.1 h a b ha hb hab
    rcases lt_trichotomy j k with hjk | hjk | hjk
    · -- the midpoint below `xs[k]` lies below `t`
      obtain ⟨i, rfl⟩ : ∃ i, k = i + 1 := ⟨k - 1, by omega⟩
      have hi := (below_iff hm t i (by omega)).1 (by omega)
      rw [midpoints_get xs i (by omega)] at hi
      have hji : xs[j] ≤ xs[i] := by
        rcases Nat.lt_or_ge j i with hc | hc
        · exact (mono j i hj (by omega) hc).le
        · have : j = i := by omega
          subst this; exact le_rfl
      have hlt := mono i (i + 1) (by omega) hk (by omega)
      rw [abs_le]
      have hneg : xs[j] - t < 0 := by linarith
      rw [abs_of_neg hneg]
      constructor <;> linarith
    · subst hjk; exact le_rfl
    · have hi : ¬ k < below (midpoints xs) t := by omega
      rw [below_iff hm t k (by omega), midpoints_get xs k (by omega), not_lt] at hi
      have hji : xs[k + 1] ≤ xs[j] := by
        rcases Nat.lt_or_ge (k + 1) j with hc | hc
        · exact (mono (k + 1) j (by omega) hj hc).le
        · have : j = k + 1 := by omega
          subst this; exact le_rfl
      have hlt := mono k (k + 1) hk (by omega) (by omega)
      rw [abs_le]
      have hpos : 0 < xs[j] - t := by linarith
      rw [abs_of_pos hpos]
      constructor <;> linarith

/-! ### C209: the same times -/

/-- **C209** When the observations are irregular, or the model writes more often than was observed, every simulated
value is compared with the observation interpolated to the time of that value. -/
theorem C209_interpolated_partial (kd : Kind) (oi si : Interval) (ot ov st sv : List ℚ) (hl : sv.length = st.length)
    (h : oi = .irregular ∨ ∃ o s, oi = .num o ∧ si = .num s ∧ s < o) :
    ∃ ps, compared kd oi si ot ov st sv = .ok ps ∧ ps.length = sv.length ∧
      ∀ k (hk : k < ps.length) (hs : k < st.length) (hv : k < sv.length),
        ps[k] = (interpAt kd ot ov st[k], sv[k]) := by
  have hi : interpolates oi si = .ok true := by
    rcases h with rfl | ⟨o, s, rfl, rfl, hlt⟩
    · rfl
    · simp [interpolates, hlt]
  refine ⟨(st.map (interpAt kd ot ov)).zip sv, ?_, ?_, ?_⟩
  · unfold compared observed; rw [hi]
  · simp [hl]
  · intro k hk hs hv
    simp

/-- **C209** When both intervals are the same and both series start together, the pairs are of the same time. -/
theorem C209_regular_partial (kd : Kind) (dt start : ℚ) (n m : ℕ) (ov sv : List ℚ) (ho : ov.length = n)
    (hs : sv.length = m) :
    ∃ ps, compared kd (.num dt) (.num dt) ((List.range n).map fun k => start + k * dt) ov
        ((List.range m).map fun k => start + k * dt) sv = .ok ps ∧ ps.length = min n m ∧
      ∀ k (_ : k < ps.length) (hk1 : k < ov.length) (hk2 : k < sv.length), ps[k] = (ov[k], sv[k]) := by
  refine ⟨ov.zip sv, ?_, ?_, ?_⟩
  · unfold compared observed; simp [interpolates]
  · simp [ho, hs]
  · intro k hk h1 h2; simp

/-- **C209** Otherwise values of different times are compared: with regular observations every `o` and results every
`s > o`, the observation paired with the simulated value of the time `k s` is that of the time `k o`. -/
theorem C209_violated (kd : Kind) (o s : ℚ) (hos : o < s) (n : ℕ) (ov sv : List ℚ) (hn : ov.length = n)
    (hm : sv.length = n) :
    ∃ ps, compared kd (.num o) (.num s) ((List.range n).map fun k => k * o) ov ((List.range n).map fun k => k * s) sv =
        .ok ps ∧
      ∀ k (_ : k < ps.length) (hk1 : k < ov.length) (hk2 : k < sv.length), ps[k] = (ov[k], sv[k]) ∧
        (0 < k → ((List.range n).map fun j : ℕ => (j : ℚ) * o).getD k 0 < ((List.range n).map fun j : ℕ => (j : ℚ) * s).getD k 0) := by
  refine ⟨ov.zip sv, ?_, ?_⟩
  · unfold compared observed
    simp only [interpolates, decide_eq_false (not_lt.2 hos.le)]
  · intro k hk h1 h2
    refine ⟨by simp, fun h0 => ?_⟩
    rw [getD_lt (by simpa using by omega), getD_lt (by simpa using by omega)]
    simp only [List.getElem_map, List.getElem_range]
    have : (0 : ℚ) < k := by exact_mod_cast h0
    exact mul_lt_mul_of_pos_left hos this

/-- **C209** Irregular results with regular observations cannot be compared at all. -/
theorem C209_irregular_violated (kd : Kind) (o : ℚ) (ot ov st sv : List ℚ) (ps : List (ℚ × ℚ)) :
    compared kd (.num o) .irregular ot ov st sv ≠ .ok ps := by
  simp [compared, observed, interpolates]

/-! ### C210: the tried value -/

/-- **C210** The grid written for a tried value holds that value where the contributing area is largest (for the
smallest Manning coefficient and the greatest width), where it is smallest but positive (for the greatest Manning
coefficient), or as the exponent of the width; the other end keeps its fixed value. -/
theorem C210_tried {ι : Type} [Fintype ι] (A : ι → ℝ) (f : Fixed) (v m lo : ℝ) (hm : Param.IsMax A m)
    (hl : Param.IsMinPos A lo) (hne : lo ≠ m) (hv : 0 < v) (h1 : 0 < f.n_min) (h2 : 0 < f.n_max) :
    (∃ a g, gridArgs f "manning_n_min" v = some ("_chan-n.rtg", a) ∧ Param.gridFromTCA A a = .grid g ∧
      (∀ i, A i = m → g i = v) ∧ ∀ i, A i = lo → g i = f.n_max) ∧
    (∃ a g, gridArgs f "manning_n_max" v = some ("_chan-n.rtg", a) ∧ Param.gridFromTCA A a = .grid g ∧
      (∀ i, A i = m → g i = f.n_min) ∧ ∀ i, A i = lo → g i = v) ∧
    (∃ a g, gridArgs f "channel_width_max" v = some ("_chan-w.rtg", a) ∧ Param.gridFromTCA A a = .grid g ∧
      (∀ i, A i = m → g i = v) ∧ ∀ i, 0 < A i → g i = v * (A i / m) ^ f.width_power) ∧
    (∃ a g, gridArgs f "channel_width_power" v = some ("_chan-w.rtg", a) ∧ Param.gridFromTCA A a = .grid g ∧
      (∀ i, A i = m → g i = f.width_max) ∧ ∀ i, 0 < A i → g i = f.width_max * (A i / m) ^ v) := by
  have hm0 : 0 < m := by
    obtain ⟨h0, ⟨i, hi⟩, -⟩ := hl
    exact lt_of_lt_of_le h0 (by rw [← hi]; exact hm.2 i)
  refine ⟨?_, ?_, ?_, ?_⟩
  · obtain ⟨g, e, a, b, -⟩ := Param.C125_range hm hl hne hv h2
    exact ⟨_, g, by simp [gridArgs], e, a, b⟩
  · obtain ⟨g, e, a, b, -⟩ := Param.C125_range hm hl hne h1 hv
    exact ⟨_, g, by simp [gridArgs], e, a, b⟩
  · obtain ⟨g, e, a, b, -⟩ := Param.C125_exponent (g1 := v) (p := f.width_power) hm hm0 none
    exact ⟨_, g, by simp [gridArgs], e, a, b⟩
  · obtain ⟨g, e, a, b, -⟩ := Param.C125_exponent (g1 := f.width_max) (p := v) hm hm0 none
    exact ⟨_, g, by simp [gridArgs], e, a, b⟩

/-- **C210** The file that is overwritten is the one that was saved before, for every name of a parameter; other names
change no file. -/
theorem C210_backup (f : Fixed) (name : String) (v : ℝ) : (gridArgs f name v).map Prod.fst = backedUp name := by
  unfold gridArgs backedUp
  by_cases h1 : name = "channel_width_power"
  · subst h1; simp
  by_cases h2 : name = "channel_width_max"
  · subst h2; simp
  by_cases h3 : name = "manning_n_min"
  · subst h3; simp
  by_cases h4 : name = "manning_n_max"
  · subst h4; simp
  simp [h1, h2, h3, h4]

end Series
