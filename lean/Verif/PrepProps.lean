import Mathlib.Tactic.Linarith
import Mathlib.Tactic.Ring
import Mathlib.Tactic.Positivity
import Mathlib.Tactic.NormNum
import Verif.PrepModel

set_option autoImplicit false

/-!
# Preparing the input files of a run: properties C233, C234
-/

namespace Prep

/-! ## C233: the default monitored cell -/

theorem mem_cells (ny nx i j : ℕ) : (i, j) ∈ cells ny nx ↔ i < ny ∧ j < nx := by
  unfold cells
  simp

/-- **C233** Without steps back the monitored cell is a cell of the grid with the largest area, and the place that is written is the
centre of that cell. -/
theorem C233_outlet_partial (A : ℕ × ℕ → ℚ) (ny nx : ℕ) (hy : 0 < ny) (hx : 0 < nx) (info : Info)
    (hg : info.fixedAngle = true) :
    ∃ o, outletsFile A ny nx info 0 = .ok o ∧ o.row < ny ∧ o.col < nx ∧ o.area = A (o.row, o.col) ∧
      (∀ i j, i < ny → j < nx → A (i, j) ≤ o.area) ∧
      o.lon = info.west + (o.col + 1 / 2) * (info.xres / 3600) ∧
      o.lat = info.north - (o.row + 1 / 2) * (info.yres / 3600) := by
  unfold outletsFile
  have h0 : (0, 0) ∈ cells ny nx := (mem_cells _ _ _ _).mpr ⟨hy, hx⟩
  cases hm : ((cells ny nx).map A).max? with
  | none =>
    rw [List.max?_eq_none_iff, List.map_eq_nil_iff] at hm
    rw [hm] at h0
    cases h0
  | some amax =>
    rw [List.max?_eq_some_iff] at hm
    obtain ⟨hmem, hle⟩ := hm
    obtain ⟨c, hc, hca⟩ := List.mem_map.mp hmem
    simp only
    cases hf : (cells ny nx).find? (fun c => decide (A c = amax)) with
    | none =>
      rw [List.find?_eq_none] at hf
      exact absurd (by simpa using hca) (hf c hc)
    | some d =>
      obtain ⟨row, col⟩ := d
      have h1 := List.mem_of_find?_eq_some hf
      have h2 := List.find?_some hf
      rw [mem_cells] at h1
      simp only [hg, if_true]
      refine ⟨_, rfl, h1.1, h1.2, ?_, ?_, ?_, ?_⟩
      · exact (by simpa using h2 : A (row, col) = amax).symm
      · intro i j hi hj
        exact hle _ (List.mem_map.mpr ⟨(i, j), (mem_cells _ _ _ _).mpr ⟨hi, hj⟩, rfl⟩)
      · simp only
        ring
      · simp only
        ring

/-- **C233** The place lies inside the grid. -/
theorem C233_inside_partial (A : ℕ × ℕ → ℚ) (ny nx : ℕ) (hy : 0 < ny) (hx : 0 < nx) (info : Info)
    (hg : info.fixedAngle = true) (hxr : 0 < info.xres) (hyr : 0 < info.yres) (o : Outlet)
    (ho : outletsFile A ny nx info 0 = .ok o) :
    info.west < o.lon ∧ o.lon < info.west + nx * (info.xres / 3600) ∧
    info.north - ny * (info.yres / 3600) < o.lat ∧ o.lat < info.north := by
  obtain ⟨o', h', hr, hc, _, _, h1, h2⟩ := C233_outlet_partial A ny nx hy hx info hg
  rw [ho] at h'
  injection h' with h'
  subst h'
  have hxp : 0 < info.xres / 3600 := by positivity
  have hyp : 0 < info.yres / 3600 := by positivity
  have hc1 : (o.col : ℚ) + 1 ≤ nx := by exact_mod_cast hc
  have hr1 : (o.row : ℚ) + 1 ≤ ny := by exact_mod_cast hr
  have hc0 : (0 : ℚ) ≤ o.col := Nat.cast_nonneg _
  have hr0 : (0 : ℚ) ≤ o.row := Nat.cast_nonneg _
  rw [h1, h2]
  refine ⟨?_, ?_, ?_, ?_⟩
  · have : 0 < ((o.col : ℚ) + 1 / 2) * (info.xres / 3600) := by positivity
    linarith
  · have : ((o.col : ℚ) + 1 / 2) * (info.xres / 3600) < nx * (info.xres / 3600) :=
      mul_lt_mul_of_pos_right (by linarith) hxp
    linarith
  · have : ((o.row : ℚ) + 1 / 2) * (info.yres / 3600) < ny * (info.yres / 3600) :=
      mul_lt_mul_of_pos_right (by linarith) hyp
    linarith
  · have : 0 < ((o.row : ℚ) + 1 / 2) * (info.yres / 3600) := by positivity
    linarith

/-- **C233** With steps back the call always fails. -/
theorem C233_steps_violated (A : ℕ × ℕ → ℚ) (ny nx : ℕ) (info : Info) (k : ℕ) (hk : 0 < k) :
    ∃ e, outletsFile A ny nx info k = .error e := by
  unfold outletsFile
  cases ((cells ny nx).map A).max? with
  | none => exact ⟨_, rfl⟩
  | some amax =>
    simp only
    cases (cells ny nx).find? (fun c => decide (A c = amax)) with
    | none => exact ⟨_, rfl⟩
    | some d =>
      simp only [if_pos hk]
      exact ⟨_, rfl⟩

example : ∃ o, outletsFile (fun c => (c.1 : ℚ) * 3 + c.2) 2 3 ⟨true, 10, 5, 3600, 3600⟩ 0 = .ok o ∧ o.row = 1 ∧ o.col = 2 ∧
    o.lon = 25 / 2 ∧ o.lat = 7 / 2 := by
  obtain ⟨o, h, hr, hc, ha, hm, h1, h2⟩ := C233_outlet_partial (fun c => (c.1 : ℚ) * 3 + c.2) 2 3 (by norm_num) (by norm_num)
    ⟨true, 10, 5, 3600, 3600⟩ rfl
  have := hm 1 2 (by norm_num) (by norm_num)
  rw [ha] at this
  have hrow : o.row = 1 := by
    rcases Nat.lt_succ_iff_lt_or_eq.mp hr with h | h
    · have : o.row = 0 := by omega
      simp only [this] at *
      have : (2 : ℚ) < o.col := by norm_num at *; linarith
      have : 2 < o.col := by exact_mod_cast this
      omega
    · exact h
  have hcol : o.col = 2 := by
    rw [hrow] at this
    have h5 : ((1 : ℕ) : ℚ) * 3 + (2 : ℕ) ≤ ((1 : ℕ) : ℚ) * 3 + o.col := this
    have h6 : ((2 : ℕ) : ℚ) ≤ o.col := by linarith
    have : 2 ≤ o.col := by exact_mod_cast h6
    omega
  refine ⟨o, h, hrow, hcol, ?_, ?_⟩
  · rw [h1, hcol]; norm_num
  · rw [h2, hrow]; norm_num

/-! ## C234: the part of a forcing file -/

/-- The date of a line: its first ten characters. -/
def date (l : Line) : Line := l.take 10

theorem prefix_iff (d l : Line) (hd : d.length = 10) : d.isPrefixOf l = true ↔ date l = d := by
  rw [List.isPrefixOf_iff_prefix, List.prefix_iff_eq_take, hd]
  exact eq_comm

theorem untilEnd_sorted (e : Line) (he : e.length = 10) (ls : List Line)
    (hs : ls.Pairwise (fun a b => date a ≤ date b)) (hmem : (∃ l ∈ ls, date l = e) ∨ ∀ l ∈ ls, date l < e) :
    untilEnd e ls = ls.filter (fun l => decide (date l < e)) := by
  induction ls with
  | nil => rfl
  | cons l ls ih =>
    obtain ⟨h1, h2⟩ := List.pairwise_cons.mp hs
    by_cases hp : e.isPrefixOf l = true
    · have hd := (prefix_iff e l he).mp hp
      rw [untilEnd, if_pos hp]
      symm
      rw [List.filter_eq_nil_iff]
      intro x hx
      rcases List.mem_cons.mp hx with rfl | hx
      · simp [hd]
      · have := h1 x hx
        rw [hd] at this
        simpa using this
    · have hd : date l ≠ e := fun h => hp ((prefix_iff e l he).mpr h)
      rw [untilEnd, if_neg hp]
      have hlt : date l < e := by
        rcases hmem with ⟨x, hx, hxe⟩ | h
        · rcases List.mem_cons.mp hx with rfl | hx
          · exact absurd hxe hd
          · exact lt_of_le_of_ne (hxe ▸ h1 x hx) hd
        · exact h l List.mem_cons_self
      rw [List.filter_cons_of_pos (by simpa using hlt), ih h2]
      rcases hmem with ⟨x, hx, hxe⟩ | h
      · rcases List.mem_cons.mp hx with rfl | hx
        · exact absurd hxe hd
        · exact Or.inl ⟨x, hx, hxe⟩
      · exact Or.inr fun x hx => h x (List.mem_cons_of_mem _ hx)

/-- **C234** In a file in order of time, with lines for the start date, the lines written are the header and exactly the lines
from the start date to before the end date, in order, provided that the end date is after the start date and either occurs
in the file or is after all its lines. -/
theorem C234_rows_partial (s e header : Line) (hsl : s.length = 10) (hel : e.length = 10) (hse : s < e) (lines : List Line)
    (hs : lines.Pairwise (fun a b => date a ≤ date b)) (hstart : ∃ l ∈ lines, date l = s)
    (hend : (∃ l ∈ lines, date l = e) ∨ ∀ l ∈ lines, date l < e) :
    subsetCsv s e header lines = header :: lines.filter (fun l => decide (s ≤ date l ∧ date l < e)) := by
  unfold subsetCsv
  congr 1
  induction lines with
  | nil =>
    obtain ⟨l, hl, _⟩ := hstart
    cases hl
  | cons l ls ih =>
    obtain ⟨h1, h2⟩ := List.pairwise_cons.mp hs
    by_cases hp : s.isPrefixOf l = true
    · have hd := (prefix_iff s l hsl).mp hp
      rw [fromStart, if_pos hp, List.filter_cons_of_pos (by simp [hd, hse]), untilEnd_sorted e hel ls h2]
      · congr 1
        apply List.filter_congr
        intro x hx
        have := h1 x hx
        rw [hd] at this
        simp [this]
      · rcases hend with ⟨x, hx, hxe⟩ | h
        · rcases List.mem_cons.mp hx with rfl | hx
          · rw [hd] at hxe
            exact absurd hxe (ne_of_lt hse)
          · exact Or.inl ⟨x, hx, hxe⟩
        · exact Or.inr fun x hx => h x (List.mem_cons_of_mem _ hx)
    · have hd : date l ≠ s := fun h => hp ((prefix_iff s l hsl).mpr h)
      obtain ⟨x, hx, hxs⟩ := hstart
      have hx' : x ∈ ls := (List.mem_cons.mp hx).resolve_left (fun h => hd (h ▸ hxs))
      have hlt : date l < s := lt_of_le_of_ne (hxs ▸ h1 x hx') hd
      rw [fromStart, if_neg hp, List.filter_cons_of_neg (by simp [not_le.mpr hlt])]
      refine ih h2 ⟨x, hx', hxs⟩ ?_
      rcases hend with ⟨y, hy, hye⟩ | h
      · rcases List.mem_cons.mp hy with rfl | hy
        · exact absurd (hye ▸ hlt) (not_lt.mpr hse.le)
        · exact Or.inl ⟨y, hy, hye⟩
      · exact Or.inr fun y hy => h y (List.mem_cons_of_mem _ hy)

theorem untilEnd_absent (e : Line) (ls : List Line) (h : ∀ l ∈ ls, e.isPrefixOf l = false) : untilEnd e ls = ls := by
  induction ls with
  | nil => rfl
  | cons l ls ih =>
    rw [untilEnd, if_neg (by rw [h l List.mem_cons_self]; simp), ih (fun x hx => h x (List.mem_cons_of_mem _ hx))]

/-- **C234** It fails when the end date is not in the file: all lines to the end of the file are written, whatever their
dates. -/
theorem C234_gap_violated (s e header first : Line) (hp : s.isPrefixOf first = true) (lines : List Line)
    (hend : ∀ l ∈ lines, e.isPrefixOf l = false) :
    subsetCsv s e header (first :: lines) = header :: first :: lines := by
  unfold subsetCsv
  rw [fromStart, if_pos hp, untilEnd_absent e lines hend]

/-- **C234** It fails when the start date is not in the file: nothing but the header is written, even if there are lines between
the two dates. -/
theorem C234_no_start_violated (s e header : Line) (lines : List Line) (hend : ∀ l ∈ lines, s.isPrefixOf l = false) :
    subsetCsv s e header lines = [header] := by
  unfold subsetCsv
  congr 1
  induction lines with
  | nil => rfl
  | cons l ls ih =>
    rw [fromStart, if_neg (by rw [hend l List.mem_cons_self]; simp), ih (fun x hx => hend x (List.mem_cons_of_mem _ hx))]

/-- **C234** It fails for equal dates: one line is written, not none. -/
theorem C234_same_date_violated (s header first second : Line) (h1 : s.isPrefixOf first = true)
    (h2 : s.isPrefixOf second = true) (lines : List Line) :
    subsetCsv s s header (first :: second :: lines) = [header, first] := by
  unfold subsetCsv
  rw [fromStart, if_pos h1, untilEnd, if_pos h2]

example : subsetCsv "2012-06-01".toList "2012-07-01".toList "time,rain".toList
    ["2012-05-31 23:00:00,0".toList, "2012-06-01 00:00:00,1".toList, "2012-06-30 00:00:00,2".toList,
      "2012-07-01 00:00:00,3".toList] =
    ["time,rain".toList, "2012-06-01 00:00:00,1".toList, "2012-06-30 00:00:00,2".toList] := by
  decide +kernel

end Prep
