import Mathlib.Algebra.BigOperators.Group.List.Basic
import Mathlib.Algebra.Order.Field.Rat
import Mathlib.Data.List.Chain
import Verif.MctModel
import Verif.TimeUtilsProps

/-!
# Properties C213 and C214: columns of text files and the wettest month
-/

set_option autoImplicit false
set_option linter.unusedSectionVars false

namespace Mct

open TimeUtils

/-! ## C213: one column -/

section
variable {V : Type}

/-- A data line gives the value `v` in column `col`. -/
def Gives (delim : Char) (col : ℕ) (parse : Text → Option V) (line : Text) (v : V) : Prop :=
  ∃ w, (splitOn delim line)[col]? = some w ∧ parse w = some v

theorem readLoop_ok (n : ℕ) (delim : Char) (col : ℕ) (parse : Text → Option V) (k : ℕ)
    (lines : List Text) (vs : List V) :
    readLoop n delim col parse k lines = .ok vs ↔
      List.Forall₂ (Gives delim col parse) lines vs ∧ (k + lines.length ≤ n ∨ lines = []) := by
  induction lines generalizing k vs with
  | nil =>
    simp only [readLoop, Except.ok.injEq, List.forall₂_nil_left_iff, or_true, and_true]
    exact eq_comm
  | cons line rest ih =>
    rw [readLoop]
    cases hw : (splitOn delim line)[col]? with
    | none =>
      simp only [reduceCtorEq, List.forall₂_cons_left_iff, Gives, hw, false_and, exists_false]
    | some w =>
      dsimp only
      cases hv : parse w with
      | none =>
        simp only [reduceCtorEq, List.forall₂_cons_left_iff, Gives, hw, false_iff]
        rintro ⟨⟨b, u, ⟨w', h, h2⟩, -⟩, -⟩
        rw [← Option.some.inj h, hv] at h2
        cases h2
      | some v =>
        dsimp only
        by_cases hk : k < n
        · rw [if_pos hk]
          cases hr : readLoop n delim col parse (k + 1) rest with
          | error e =>
            simp only [reduceCtorEq, List.forall₂_cons_left_iff, false_iff]
            rintro ⟨⟨b, u, h1, h2, h3⟩, h4⟩
            have : readLoop n delim col parse (k + 1) rest = .ok u := by
              rw [ih]
              refine ⟨h2, ?_⟩
              simp only [List.length_cons, reduceCtorEq, or_false] at h4
              left
              omega
            rw [hr] at this
            cases this
          | ok us =>
            simp only [Except.ok.injEq, List.forall₂_cons_left_iff]
            have h0 := (ih (k + 1) us).mp hr
            constructor
            · rintro rfl
              refine ⟨⟨v, us, ⟨w, hw, hv⟩, h0.1, rfl⟩, ?_⟩
              left
              rcases h0.2 with h | h
              · simp only [List.length_cons]; omega
              · rw [h]; simp only [List.length_cons, List.length_nil]; omega
            · rintro ⟨⟨b, u, ⟨w', h1, h1'⟩, h2, h3⟩, h4⟩
              have hb : b = v := by
                rw [hw] at h1
                rw [← Option.some.inj h1, hv] at h1'
                exact (Option.some.inj h1').symm
              have hu : readLoop n delim col parse (k + 1) rest = .ok u := by
                rw [ih]
                refine ⟨h2, ?_⟩
                simp only [List.length_cons, reduceCtorEq, or_false] at h4
                left
                omega
              rw [hr] at hu
              rw [h3, hb, Except.ok.inj hu]
        · rw [if_neg hk]
          simp only [reduceCtorEq, false_iff, not_and, not_or, List.length_cons, not_false_eq_true,
            and_true]
          intro _
          omega

/-- After `count_lines` of the same file, a column read is exactly the list of the values of the data
lines, in order and complete; it is refused exactly when some line has no such column or no value
there. -/
theorem C213_column (file : List Text) (col skip : ℕ) (delim : Char) (parse : Text → Option V)
    (vs : List V) :
    readColumn (some (countLines file)) file col skip delim parse = .ok vs ↔
      List.Forall₂ (Gives delim col parse) (file.drop skip) vs := by
  unfold readColumn countLines
  dsimp only
  rw [readLoop_ok, and_iff_left]
  left
  rw [List.length_drop]
  omega

/-- In particular there is one value per data line. -/
theorem C213_length (file : List Text) (col skip : ℕ) (delim : Char) (parse : Text → Option V)
    (vs : List V) (h : readColumn (some (countLines file)) file col skip delim parse = .ok vs) :
    vs.length = file.length - skip := by
  rw [C213_column] at h
  rw [← h.length_eq, List.length_drop]

/-- With the line count of another file, a longer file is refused rather than cut off. -/
theorem C213_stale (n : ℕ) (file : List Text) (col skip : ℕ) (delim : Char)
    (parse : Text → Option V) (h : n < file.length - skip) :
    ∀ vs, readColumn (some n) file col skip delim parse ≠ .ok vs := by
  intro vs hv
  unfold readColumn at hv
  dsimp only at hv
  rw [readLoop_ok] at hv
  rcases hv.2 with h1 | h1
  · rw [List.length_drop] at h1; omega
  · rw [List.drop_eq_nil_iff] at h1; omega

/-- Without `count_lines` nothing is read. -/
theorem C213_uncounted (file : List Text) (col skip : ℕ) (delim : Char) (parse : Text → Option V) :
    readColumn none file col skip delim parse = .error "AttributeError" := rfl

example : readColumn (some (countLines ["a,b".toList, "1,22".toList, "3,4,5".toList]))
    ["a,b".toList, "1,22".toList, "3,4,5".toList] 1 1 ',' some = .ok ["22".toList, "4".toList] := by
  rw [C213_column]
  refine List.Forall₂.cons ⟨_, ?_, rfl⟩ (List.Forall₂.cons ⟨_, ?_, rfl⟩ List.Forall₂.nil) <;>
    decide

end

/-! ## C214: the wettest month -/

section
variable {K : Type} [AddCommGroup K] [LinearOrder K]

/-- A data line: a date, anything after it, and a rate. -/
structure Rec (K : Type) where
  y : ℕ
  m : ℕ
  d : ℕ
  tail : Text
  rate : K

/-- The line as the two columns read: `YYYY-MM-DD...` and the rate. -/
def Rec.row (r : Rec K) : Text × K :=
  (pad r.y 4 ++ '-' :: (pad r.m 2 ++ '-' :: (pad r.d 2 ++ r.tail)), r.rate)

/-- A date with four, two and two digits. -/
def Rec.Ok (r : Rec K) : Prop := r.y < 10000 ∧ 1 ≤ r.m ∧ r.m ≤ 12 ∧ r.d < 100

/-- The rain of a calendar month in a list of lines. -/
def total (l : List (Rec K)) (y m : ℕ) : K :=
  ((l.filter (fun r => r.y = y ∧ r.m = m)).map Rec.rate).sum

/-- The next line is in the same month or in the next one. -/
def Follows (r r' : Rec K) : Prop :=
  12 * r'.y + r'.m = 12 * r.y + r.m ∨ 12 * r'.y + r'.m = 12 * r.y + r.m + 1

theorem split_row (r : Rec K) (h : r.Ok) :
    splitOn '-' (r.row.1.take 10) = [pad r.y 4, pad r.m 2, pad r.d 2] := by
  obtain ⟨hy, hm, hm', hd⟩ := h
  have e : r.row.1 = (pad r.y 4 ++ '-' :: (pad r.m 2 ++ '-' :: pad r.d 2)) ++ r.tail := by
    simp [Rec.row]
  have l1 := length_pad r.y 4 (by decide) (by omega)
  have l2 := length_pad r.m 2 (by decide) (by omega)
  have l3 := length_pad r.d 2 (by decide) (by omega)
  rw [e, List.take_left' (by simp [l1, l2, l3])]
  rw [splitOn_cons '-' _ _ (notMem_of_digits (isDigit_pad _ _) _ (by decide)),
    splitOn_cons '-' _ _ (notMem_of_digits (isDigit_pad _ _) _ (by decide)),
    splitOn_end '-' _ (notMem_of_digits (isDigit_pad _ _) _ (by decide))]

theorem pad_inj {a b k : ℕ} : pad a k = pad b k ↔ a = b := by
  constructor
  · intro h
    have h1 := parseNat_pad a k
    rw [h, parseNat_pad] at h1
    exact (Except.ok.inj h1).symm
  · rintro rfl; rfl

theorem total_append (l : List (Rec K)) (r : Rec K) (y m : ℕ) :
    total (l ++ [r]) y m = total l y m + if r.y = y ∧ r.m = m then r.rate else 0 := by
  unfold total
  rw [List.filter_append, List.map_append, List.sum_append]
  congr 1
  by_cases h : r.y = y ∧ r.m = m
  · rw [if_pos h]; simp [h]
  · rw [if_neg h]
    simp [h]

theorem total_none (l : List (Rec K)) (y m : ℕ) (h : ∀ r ∈ l, ¬ (r.y = y ∧ r.m = m)) :
    total l y m = 0 := by
  unfold total
  rw [List.filter_eq_nil_iff.mpr (by simpa using h)]
  rfl

/-- What the variables hold after the lines `l`, the last of which is `r`. -/
structure Inv (y0 : ℕ) (l : List (Rec K)) (r : Rec K) (s : St K) : Prop where
  lastMonth : s.lastMonth = some (pad r.m 2)
  lastYear : s.lastYear = pad r.y 4
  minYear : s.minYear = y0
  yi : y0 + s.yi = r.y
  mi : s.mi + 1 = r.m
  rainSum : s.rainSum = total l r.y r.m
  sums : ∀ a b, b < 12 → s.sums a b =
    if 12 * (y0 + a) + b + 1 < 12 * r.y + r.m then total l (y0 + a) (b + 1) else 0
  bound : ∀ q ∈ l, 12 * q.y + q.m ≤ 12 * r.y + r.m ∧ 1 ≤ q.m ∧ q.m ≤ 12

theorem step_first (r : Rec K) (h : r.Ok) (done : Bool) :
    step done (init : St K) r.row =
      turn done (pad r.y 4) (pad r.m 2) r.rate
        { (init : St K) with lastMonth := some (pad r.m 2), lastYear := pad r.y 4, minYear := r.y } := by
  unfold step
  rw [split_row r h]
  dsimp only [init]
  rw [parseNat_pad]
  rfl

theorem step_later (r : Rec K) (h : r.Ok) (done : Bool) (s : St K) (w : Text)
    (hs : s.lastMonth = some w) :
    step done s r.row = turn done (pad r.y 4) (pad r.m 2) r.rate s := by
  unfold step
  rw [split_row r h]
  dsimp only
  rw [hs]
  rfl

theorem inv_first (r : Rec K) (h : r.Ok) (h1 : r.m = 1) :
    ∃ s, step false (init : St K) r.row = .ok s ∧ Inv r.y [r] r s := by
  rw [step_first r h]
  unfold turn
  simp only [init, ne_eq, not_true_eq_false, Bool.false_eq_true, or_self, false_and, if_false]
  refine ⟨_, rfl, ⟨rfl, rfl, rfl, rfl, by simp [h1], ?_, ?_, ?_⟩⟩
  · simp [total]
  · intro a b hb
    rw [if_neg (by omega)]
  · intro q hq
    rw [List.mem_singleton] at hq
    subst hq
    exact ⟨le_refl _, h.2.1, h.2.2.1⟩

theorem inv_step (y0 : ℕ) (l : List (Rec K)) (r r' : Rec K) (s : St K) (hi : Inv y0 l r s)
    (h' : r'.Ok) (hr : r.Ok) (hf : Follows r r') (hy : r'.y < y0 + 20) :
    ∃ s', step false s r'.row = .ok s' ∧ Inv y0 (l ++ [r']) r' s' := by
  rw [step_later r' h' false s _ hi.lastMonth]
  obtain ⟨-, hm1, hm2, -⟩ := hr
  obtain ⟨-, hm1', hm2', -⟩ := h'
  have hbound : ∀ q ∈ l ++ [r'], 12 * q.y + q.m ≤ 12 * r'.y + r'.m ∧ 1 ≤ q.m ∧ q.m ≤ 12 := by
    intro q hq
    rw [List.mem_append, List.mem_singleton] at hq
    rcases hq with hq | rfl
    · have := hi.bound q hq
      unfold Follows at hf
      omega
    · exact ⟨le_refl _, hm1', hm2'⟩
  unfold turn
  simp only [Bool.false_eq_true, or_false, hi.lastMonth, hi.lastYear, ne_eq, Option.some.injEq,
    pad_inj]
  rcases hf with hf | hf
  · have ey : r.y = r'.y := by omega
    have em : r.m = r'.m := by omega
    simp only [em, ey, not_true_eq_false, false_and, if_false]
    refine ⟨_, rfl, ⟨?_, ?_, hi.minYear, ?_, ?_, ?_, ?_, hbound⟩⟩
    · simp [hi.lastMonth, em]
    · simp [hi.lastYear, ey]
    · simp only; rw [hi.yi, ey]
    · simp only; rw [hi.mi, em]
    · simp only
      rw [hi.rainSum, total_append, if_pos ⟨rfl, rfl⟩, ey, em]
    · intro a b hb
      simp only
      rw [hi.sums a b hb, total_append]
      by_cases hlt : 12 * (y0 + a) + b + 1 < 12 * r'.y + r'.m
      · rw [if_pos hlt, if_pos (by omega), if_neg (by omega), add_zero]
      · rw [if_neg hlt, if_neg (by omega)]
  · have em : r.m ≠ r'.m := by omega
    have hyi := hi.yi
    have hmi := hi.mi
    simp only [em, not_false_eq_true, true_and, if_true]
    rw [if_neg (by omega)]
    have hsum : ∀ a b, b < 12 →
        (if a = s.yi ∧ b = s.mi then s.rainSum else s.sums a b) =
          if 12 * (y0 + a) + b + 1 < 12 * r'.y + r'.m then total (l ++ [r']) (y0 + a) (b + 1)
          else 0 := by
      intro a b hb
      rw [total_append]
      by_cases hc : a = s.yi ∧ b = s.mi
      · rw [if_pos hc, if_pos (by omega), if_neg (by omega), add_zero, hi.rainSum, hc.1, hc.2,
          hi.yi, hi.mi]
      · rw [if_neg hc, hi.sums a b hb]
        by_cases hlt : 12 * (y0 + a) + b + 1 < 12 * r.y + r.m
        · rw [if_pos hlt, if_pos (by omega), if_neg (by omega), add_zero]
        · rw [if_neg hlt, if_neg (by omega)]
    have hzero : total l r'.y r'.m = 0 := by
      refine total_none l _ _ fun q hq hc => ?_
      have := hi.bound q hq
      omega
    by_cases hy' : r.y = r'.y
    · simp only [hy', not_true_eq_false, if_false]
      refine ⟨_, rfl, ⟨rfl, ?_, hi.minYear, ?_, ?_, ?_, hsum, hbound⟩⟩
      · simp [hi.lastYear, hy']
      · simp only; rw [hi.yi, hy']
      · simp only; omega
      · simp only; rw [total_append, if_pos ⟨rfl, rfl⟩, hzero]
    · simp only [hy', not_false_eq_true, if_true]
      refine ⟨_, rfl, ⟨rfl, rfl, hi.minYear, ?_, ?_, ?_, hsum, hbound⟩⟩
      · simp only; omega
      · simp only; omega
      · simp only; rw [total_append, if_pos ⟨rfl, rfl⟩, hzero]

theorem loop_cons (s : St K) (r r' : Text × K) (rest : List (Text × K)) (s' : St K)
    (h : step false s r = .ok s') : loop s (r :: r' :: rest) = loop s' (r' :: rest) := by
  rw [loop, h]

/-- The table at the end of the loop. -/
theorem loop_inv (y0 : ℕ) (rest : List (Rec K)) (l : List (Rec K)) (r : Rec K) (s : St K)
    (hi : Inv y0 l r s) (hr : r.Ok) (hok : ∀ q ∈ rest, q.Ok ∧ q.y < y0 + 20)
    (hry : r.y < y0 + 20) (hch : List.IsChain Follows (r :: rest)) (hne : rest ≠ []) :
    ∃ s', loop s (rest.map Rec.row) = .ok s' ∧ s'.minYear = y0 ∧
      ∀ a b, b < 12 → s'.sums a b = total (l ++ rest.dropLast) (y0 + a) (b + 1) := by
  induction rest generalizing l r s with
  | nil => exact absurd rfl hne
  | cons r' rest ih =>
    have hr' := (hok r' (by simp)).1
    have hf : Follows r r' := by
      rw [List.isChain_cons_cons] at hch
      exact hch.1
    cases rest with
    | nil =>
      simp only [List.map_cons, List.map_nil, loop, List.dropLast_singleton, List.append_nil]
      rw [step_later r' hr' true s _ hi.lastMonth]
      unfold turn
      have hyi := hi.yi
      have hmi := hi.mi
      have hm := hr.2
      simp only [or_true, true_and, if_true]
      rw [if_neg (by omega)]
      refine ⟨_, rfl, hi.minYear, ?_⟩
      intro a b hb
      simp only
      by_cases hc : a = s.yi ∧ b = s.mi
      · rw [if_pos hc, hi.rainSum, hc.1, hc.2, hi.yi, hi.mi]
      · rw [if_neg hc, hi.sums a b hb]
        by_cases hlt : 12 * (y0 + a) + b + 1 < 12 * r.y + r.m
        · rw [if_pos hlt]
        · rw [if_neg hlt]
          symm
          refine total_none l _ _ fun q hq hcq => ?_
          have := hi.bound q hq
          omega
    | cons r'' rest =>
      obtain ⟨s1, h1, hi1⟩ := inv_step y0 l r r' s hi hr' hr hf (hok r' (by simp)).2
      simp only [List.map_cons]
      rw [loop_cons s _ _ _ s1 h1]
      have := ih (l ++ [r']) r' s1 hi1 hr' (fun q hq => hok q (List.mem_cons_of_mem _ hq))
        (hok r' (by simp)).2 (by rw [List.isChain_cons_cons] at hch; exact hch.2) (by simp)
      rw [List.dropLast_cons_cons, show l ++ r' :: (r'' :: rest).dropLast =
        (l ++ [r']) ++ (r'' :: rest).dropLast by simp]
      exact this

theorem le_foldl_max (l : List K) (x : K) : x ≤ l.foldl max x ∧ ∀ v ∈ l, v ≤ l.foldl max x := by
  induction l generalizing x with
  | nil => simp
  | cons a l ih =>
    obtain ⟨h1, h2⟩ := ih (max x a)
    rw [List.foldl_cons]
    refine ⟨le_trans (le_max_left _ _) h1, ?_⟩
    intro v hv
    rcases List.mem_cons.mp hv with rfl | hv
    · exact le_trans (le_max_right _ _) h1
    · exact h2 v hv

theorem foldl_max_mem (l : List K) (x : K) : l.foldl max x = x ∨ l.foldl max x ∈ l := by
  induction l generalizing x with
  | nil => simp
  | cons a l ih =>
    rw [List.foldl_cons]
    rcases ih (max x a) with h | h
    · rcases max_choice x a with e | e
      · left; rw [h, e]
      · right; rw [h, e]; simp
    · right; exact List.mem_cons_of_mem _ h

theorem mem_cells (a b : ℕ) : (a, b) ∈ cells ↔ a < 20 ∧ b < 12 := by
  simp [cells]

/-- Cells come in the order of time. -/
theorem cells_sorted : cells.Pairwise (fun c c' => 12 * c.1 + c.2 < 12 * c'.1 + c'.2) := by
  decide +kernel

theorem wettest_spec (f : ℕ → ℕ → K) : ∃ y m, wettest f = (f y m, some (y, m)) ∧ y < 20 ∧ m < 12 ∧
    (∀ a b, a < 20 → b < 12 → f a b ≤ f y m) ∧
    ∀ a b, a < 20 → b < 12 → f a b = f y m → 12 * y + m ≤ 12 * a + b := by
  set rmax := (cells.map (fun c => f c.1 c.2)).foldl max (f 0 0) with hr
  obtain ⟨-, hle⟩ := le_foldl_max (cells.map (fun c => f c.1 c.2)) (f 0 0)
  have hmem : ∃ c ∈ cells, f c.1 c.2 = rmax := by
    rcases foldl_max_mem (cells.map (fun c => f c.1 c.2)) (f 0 0) with h | h
    · exact ⟨(0, 0), by rw [mem_cells]; omega, by rw [hr, h]⟩
    · obtain ⟨c, hc, e⟩ := List.mem_map.mp h
      exact ⟨c, hc, by rw [hr, e]⟩
  cases hfd : cells.find? (fun c => f c.1 c.2 == rmax) with
  | none =>
    obtain ⟨c, hc, e⟩ := hmem
    have := List.find?_eq_none.mp hfd c hc
    simp [e] at this
  | some c =>
    obtain ⟨y, m⟩ := c
    have hval : f y m = rmax := by simpa using List.find?_some hfd
    have hin := (mem_cells y m).mp (List.mem_of_find?_eq_some hfd)
    refine ⟨y, m, ?_, hin.1, hin.2, ?_, ?_⟩
    · unfold wettest
      rw [← hr]
      dsimp only
      rw [hfd, hval]
    · intro a b ha hb
      rw [hval]
      exact hle _ (List.mem_map.mpr ⟨(a, b), (mem_cells a b).mpr ⟨ha, hb⟩, rfl⟩)
    · intro a b ha hb e
      obtain ⟨-, as, bs, hsplit, hbefore⟩ := List.find?_eq_some_iff_append.mp hfd
      have hab : (a, b) ∈ as ++ (y, m) :: bs := hsplit ▸ (mem_cells a b).mpr ⟨ha, hb⟩
      rw [List.mem_append, List.mem_cons] at hab
      have hs := hsplit ▸ cells_sorted
      rcases hab with h | h | h
      · have := hbefore _ h
        simp [e, hval] at this
      · cases h; exact le_refl _
      · have := (List.pairwise_cons.mp (List.pairwise_append.mp hs).2.1).1 _ h
        simp only at this
        omega

/-- A record that starts in a January, skips no month and covers at most twenty calendar years: the
month reported is the first one with the largest total over all lines but the last. -/
theorem C214_wettest_partial (r : Rec K) (rest : List (Rec K)) (hok : ∀ q ∈ r :: rest, q.Ok)
    (hjan : r.m = 1) (hch : List.IsChain Follows (r :: rest))
    (hspan : ∀ q ∈ r :: rest, q.y < r.y + 20) :
    ∃ y m v, findWettest ((r :: rest).map Rec.row) = .ok (y, m, v) ∧
      r.y ≤ y ∧ y < r.y + 20 ∧ 1 ≤ m ∧ m ≤ 12 ∧ v = total (r :: rest).dropLast y m ∧
      (∀ y' m', r.y ≤ y' → y' < r.y + 20 → 1 ≤ m' → m' ≤ 12 →
        total (r :: rest).dropLast y' m' ≤ v) ∧
      ∀ y' m', r.y ≤ y' → y' < r.y + 20 → 1 ≤ m' → m' ≤ 12 →
        total (r :: rest).dropLast y' m' = v → 12 * y + m ≤ 12 * y' + m' := by
  have hloop : ∃ s, loop (init : St K) ((r :: rest).map Rec.row) = .ok s ∧ s.minYear = r.y ∧
      ∀ a b, b < 12 → s.sums a b = total (r :: rest).dropLast (r.y + a) (b + 1) := by
    have hr := hok r (by simp)
    cases rest with
    | nil =>
      simp only [List.map_cons, List.map_nil, loop, List.dropLast_singleton]
      rw [step_first r hr true]
      unfold turn
      simp only [init, or_true, true_and, if_true]
      rw [if_neg (by omega)]
      refine ⟨_, rfl, rfl, ?_⟩
      intro a b hb
      show (if a = 0 ∧ b = 0 then (0 : K) else 0) = 0
      split <;> rfl
    | cons r' rest =>
      obtain ⟨s, h1, hi⟩ := inv_first r hr hjan
      have := loop_inv r.y (r' :: rest) [r] r s hi hr
        (fun q hq => ⟨hok q (List.mem_cons_of_mem _ hq), hspan q (List.mem_cons_of_mem _ hq)⟩)
        (hspan r (by simp)) hch (by simp)
      simp only [List.map_cons] at this ⊢
      rw [loop_cons _ _ _ _ s h1, List.dropLast_cons_cons]
      simpa using this
  obtain ⟨s, hl, hmin, hsums⟩ := hloop
  obtain ⟨y, m, hw, hy, hm, hmax, hfirst⟩ := wettest_spec s.sums
  refine ⟨y + r.y, m + 1, s.sums y m, ?_, by omega, by omega, by omega, by omega, ?_, ?_, ?_⟩
  · unfold findWettest
    rw [hl]
    dsimp only
    rw [if_neg (by simp), hw, hmin]
  · rw [hsums y m hm, add_comm]
  · intro y' m' h1 h2 h3 h4
    have := hmax (y' - r.y) (m' - 1) (by omega) (by omega)
    rw [hsums _ _ (by omega), show r.y + (y' - r.y) = y' by omega,
      show m' - 1 + 1 = m' by omega] at this
    exact this
  · intro y' m' h1 h2 h3 h4 e
    have := hfirst (y' - r.y) (m' - 1) (by omega) (by omega) (by
      rw [hsums (y' - r.y) _ (by omega), show r.y + (y' - r.y) = y' by omega,
      show m' - 1 + 1 = m' by omega]
      exact e)
    omega

theorem turn_done (y m : Text) (a b : K) (s s1 : St K) (h : turn true y m a s = .ok s1) :
    ∃ s2, turn true y m b s = .ok s2 ∧ s2.sums = s1.sums ∧ s2.minYear = s1.minYear := by
  unfold turn at h ⊢
  simp only [or_true, true_and, if_true] at h ⊢
  by_cases hc : 20 ≤ s.yi
  · rw [if_pos hc] at h; cases h
  · rw [if_neg hc] at h ⊢
    cases h
    exact ⟨_, rfl, rfl, rfl⟩

theorem step_done (w : Text) (a b : K) (s s1 : St K) (h : step true s (w, a) = .ok s1) :
    ∃ s2, step true s (w, b) = .ok s2 ∧ s2.sums = s1.sums ∧ s2.minYear = s1.minYear := by
  unfold step at h ⊢
  dsimp only at h ⊢
  split at h
  · rename_i y m d heq
    cases hm : s.lastMonth with
    | some w' =>
      rw [hm] at h
      exact turn_done _ _ a b _ s1 h
    | none =>
      rw [hm] at h
      dsimp only at h ⊢
      cases hp : parseNat y with
      | error e => rw [hp] at h; cases h
      | ok n =>
        rw [hp] at h
        exact turn_done _ _ a b _ s1 h
  · cases h

theorem loop_last (w : Text) (a b : K) (rows : List (Text × K)) (s s1 : St K)
    (h : loop s (rows ++ [(w, a)]) = .ok s1) :
    ∃ s2, loop s (rows ++ [(w, b)]) = .ok s2 ∧ s2.sums = s1.sums ∧ s2.minYear = s1.minYear := by
  induction rows generalizing s with
  | nil => exact step_done w a b s s1 h
  | cons r rows ih =>
    cases rows with
    | nil =>
      simp only [List.cons_append, List.nil_append, loop] at h ⊢
      cases hs : step false s r with
      | error e => rw [hs] at h; cases h
      | ok s' => rw [hs] at h; exact step_done w a b s' s1 h
    | cons r' rows =>
      simp only [List.cons_append, loop] at h ⊢
      cases hs : step false s r with
      | error e => rw [hs] at h; cases h
      | ok s' => rw [hs] at h; exact ih s' h

/-- The rain of the last line never counts, whatever it is. -/
theorem C214_last_line_violated (rows : List (Text × K)) (w : Text) (a b : K) (res : ℕ × ℕ × K)
    (h : findWettest (rows ++ [(w, a)]) = .ok res) : findWettest (rows ++ [(w, b)]) = .ok res := by
  unfold findWettest at h ⊢
  cases hl : loop init (rows ++ [(w, a)]) with
  | error e => rw [hl] at h; cases h
  | ok s1 =>
    obtain ⟨s2, h2, e1, e2⟩ := loop_last w a b rows init s1 hl
    rw [hl] at h
    rw [h2]
    dsimp only at h ⊢
    rw [if_neg (by simp)] at h ⊢
    rw [e1, e2]
    exact h

end

/-- Whether a call reports this year and month. -/
def reports (r : Except String (ℕ × ℕ × ℚ)) (y m : ℕ) : Bool :=
  match r with
  | .ok (y', m', _) => y' == y && m' == m
  | .error _ => false

/-- Rain in July and August 2001 only, more in August: the month reported is February. -/
theorem C214_start_violated : reports (findWettest ([⟨2001, 7, 1, [], 1⟩, ⟨2001, 8, 1, [], 5⟩,
    ⟨2001, 9, 1, [], 0⟩].map Rec.row)) 2001 2 = true := by
  decide +kernel

/-- A month without lines shifts all later ones: rain in March is reported as February. -/
theorem C214_gap_violated : reports (findWettest ([⟨2001, 1, 1, [], 1⟩, ⟨2001, 3, 1, [], 5⟩,
    ⟨2001, 4, 1, [], 0⟩].map Rec.row)) 2001 2 = true := by
  decide +kernel

/-- More than twenty years: IndexError. -/
theorem C214_span_violated : (match findWettest (((List.range 22).map
    (fun k => (⟨2000 + k, 1, 1, [], 1⟩ : Rec ℚ))).map Rec.row) with
    | .error e => e == "IndexError"
    | .ok _ => false) = true := by
  decide +kernel

example : reports (findWettest ([⟨2001, 1, 1, [], 1⟩, ⟨2001, 1, 2, " 10:00".toList, 1⟩,
    ⟨2001, 2, 1, [], 5⟩, ⟨2001, 3, 1, [], 9⟩].map Rec.row)) 2001 2 = true := by
  decide +kernel

end Mct
