import Verif.TableProps

/-!
# Text tables: cells given with fractions, the headers

C87 (fractional positions, header of the file of monitored cells) and C89 (label of the time
column).
-/

set_option autoImplicit false

namespace Table

/-! ## C87: positions with a fraction -/

theorem trunc_spec (q : ℚ) :
    |(trunc q : ℚ)| ≤ |q| ∧ |q - trunc q| < 1 ∧ 0 ≤ q * trunc q := by
  unfold trunc
  split_ifs with h
  · have h1 := Int.floor_le (-q)
    have h2 := Int.lt_floor_add_one (-q)
    have h0 : (0 : ℚ) ≤ ⌊-q⌋ := by
      exact_mod_cast Int.floor_nonneg.2 (by linarith : (0 : ℚ) ≤ -q)
    push_cast
    refine ⟨?_, ?_, ?_⟩
    · rw [abs_neg, abs_of_nonneg h0, abs_of_neg h]; exact h1
    · rw [abs_lt]; constructor <;> linarith
    · nlinarith
  · push Not at h
    have h1 := Int.floor_le q
    have h2 := Int.lt_floor_add_one q
    have h0 : (0 : ℚ) ≤ ⌊q⌋ := by exact_mod_cast Int.floor_nonneg.2 h
    refine ⟨?_, ?_, ?_⟩
    · rw [abs_of_nonneg h0, abs_of_nonneg h]; exact h1
    · rw [abs_lt]; constructor <;> linarith
    · exact mul_nonneg h h0

/-- **C87 (fractions).** In a file of entries whose positions are any decimal numbers, the cells
are the positions with the fraction cut off: the stored column and row are less than one away
from the number in the file, and not further from zero. -/
theorem C87_fractions : ∀ (ls : List Text) (os : List Outlet), readRows ls = .ok os →
    ∀ l ∈ ls, ∀ w0 w1 w2 w3 ws, words l = w0 :: w1 :: w2 :: w3 :: ws →
      ∃ c r : ℚ, ∃ o ∈ os, parseReal w0 = .ok c ∧ parseReal w1 = .ok r ∧
        parseReal w2 = .ok o.area ∧ parseReal w3 = .ok o.relief ∧
        (|(o.col : ℚ)| ≤ |c| ∧ |c - o.col| < 1 ∧ 0 ≤ c * o.col) ∧
        (|(o.row : ℚ)| ≤ |r| ∧ |r - o.row| < 1 ∧ 0 ≤ r * o.row)
  | [], _, _, l, hl => by simp at hl
  | l :: ls, os, h, x, hx => by
    intro w0 w1 w2 w3 ws hw
    unfold readRows at h
    split at h
    · rename_i v0 v1 v2 v3 vs hv
      split at h
      · rename_i c r a b h0 h1 h2 h3
        split at h
        · rename_i os' hos
          cases h
          rcases List.mem_cons.1 hx with rfl | hx
          · rw [hv] at hw
            cases hw
            exact ⟨c, r, _, List.mem_cons_self, h0, h1, h2, h3, trunc_spec c, trunc_spec r⟩
          · obtain ⟨c', r', o, ho, hrest⟩ := C87_fractions ls os' hos x hx w0 w1 w2 w3 ws hw
            exact ⟨c', r', o, List.mem_cons_of_mem _ ho, hrest⟩
        · cases h
      · cases h
    · rename_i hne
      rcases List.mem_cons.1 hx with rfl | hx
      · exact absurd hw (hne _ _ _ _ _)
      · exact C87_fractions ls os h x hx w0 w1 w2 w3 ws hw

/-- Column 29.9, row -0.5: cell (29, 0). -/
example : (match readRows ["  29.9  -0.5  1.25  2.5".toList] with
    | .ok os => decide (os = [⟨29, 0, 5 / 4, 5 / 2⟩]) | _ => false) = true := by decide +kernel

/-! ## C87: the header stands above the values -/

theorem suffix_take {a b c t : Text} {e : ℕ} (h : t <:+ b) (he : (a ++ b).length = e) :
    t <:+ ((a ++ b) ++ c).take e := by
  rw [List.take_left' he]
  exact h.trans (List.suffix_append a b)

theorem suffix_rjust (w : ℕ) (s : Text) : s <:+ rjust w s := List.suffix_append _ _

/-- **C87 (header).** In a file written for a monitored cell (column of at most ten digits) every
label ends in the character column in which its value ends. -/
theorem C87_header (col row : ℤ) (area relief lon lat : ℚ) (hf : Fits row area relief lon lat)
    (h0 : 0 ≤ col) (h1 : col < 10 ^ 10) :
    ∃ l3 l5, (outletLines col row area relief lon lat)[3]? = some l3 ∧
      (outletLines col row area relief lon lat)[5]? = some l5 ∧
      l3.length = 84 ∧ l5.length = 84 ∧
      ∀ x ∈ [("Column".toList, fmtInt col, 10), ("Row".toList, fmtInt row, 20),
          ("Area [km^2]".toList, fmtFix 2 area, 36), ("Relief [m]".toList, fmtFix 2 relief, 52),
          ("Lon [deg]".toList, fmtFix 8 lon, 68), ("Lat [deg]".toList, fmtFix 8 lat, 84)],
        x.1 <:+ l3.take x.2.2 ∧ x.2.1 <:+ l5.take x.2.2 := by
  have ncol : (rjust 10 (fmtInt col)).length = 10 := by
    apply rjust_length
    have hn : col.natAbs < 10 ^ 10 := by omega
    have := (Nat.length_toDigits_le_iff (b := 10) (by omega) (by omega)).2 hn
    unfold fmtInt
    rw [if_neg (by omega)]
    simpa using this
  have nrow : (rjust 10 (fmtInt row)).length = 10 := by
    apply rjust_length
    have h2 := hf.row_nonneg
    have h3 := hf.row_lt
    have hn : row.natAbs < 10 ^ 10 := by omega
    have := (Nat.length_toDigits_le_iff (b := 10) (by omega) (by omega)).2 hn
    unfold fmtInt
    rw [if_neg (by omega)]
    simpa using this
  have narea : (rjust 16 (fmtFix 2 area)).length = 16 := by
    apply rjust_length
    have := fmtFix_length 2 12 (by omega) area
      (by rw [abs_of_nonneg hf.area_nonneg]; linarith [hf.area_le])
    rw [if_neg (by linarith [hf.area_nonneg])] at this
    omega
  have nrel : (rjust 16 (fmtFix 2 relief)).length = 16 := by
    apply rjust_length
    have := fmtFix_length 2 11 (by omega) relief (by linarith [hf.relief_le])
    split_ifs at this <;> omega
  have nlon : (rjust 16 (fmtFix 8 lon)).length = 16 := by
    apply rjust_length
    have := fmtFix_length 8 3 (by omega) lon (by linarith [hf.lon_le])
    split_ifs at this <;> omega
  have nlat : (rjust 16 (fmtFix 8 lat)).length = 16 := by
    apply rjust_length
    have := fmtFix_length 8 3 (by omega) lat (by linarith [hf.lat_le])
    split_ifs at this <;> omega
  refine ⟨_, _, rfl, rfl, by decide, ?_, ?_⟩
  · simp [outletLine, ncol, nrow, narea, nrel, nlon, nlat]
  · intro x hx
    simp only [List.mem_cons, List.not_mem_nil, or_false] at hx
    unfold outletLine
    rcases hx with rfl | rfl | rfl | rfl | rfl | rfl
    · refine ⟨by dsimp only; decide, ?_⟩
      simpa [List.append_assoc] using suffix_take (a := []) (c := _) (suffix_rjust 10 (fmtInt col))
        (by simpa using ncol)
    · refine ⟨by dsimp only; decide, ?_⟩
      have := suffix_take (a := rjust 10 (fmtInt col)) (e := 20)
        (c := rjust 16 (fmtFix 2 area) ++ (rjust 16 (fmtFix 2 relief) ++
          (rjust 16 (fmtFix 8 lon) ++ rjust 16 (fmtFix 8 lat))))
        (suffix_rjust 10 (fmtInt row)) (by simp [ncol, nrow])
      simpa only [List.append_assoc] using this
    · refine ⟨by dsimp only; decide, ?_⟩
      have := suffix_take (a := rjust 10 (fmtInt col) ++ rjust 10 (fmtInt row)) (e := 36)
        (c := rjust 16 (fmtFix 2 relief) ++ (rjust 16 (fmtFix 8 lon) ++ rjust 16 (fmtFix 8 lat)))
        (suffix_rjust 16 (fmtFix 2 area)) (by simp [ncol, nrow, narea])
      simpa only [List.append_assoc] using this
    · refine ⟨by dsimp only; decide, ?_⟩
      have := suffix_take (a := rjust 10 (fmtInt col) ++ (rjust 10 (fmtInt row) ++
          rjust 16 (fmtFix 2 area))) (e := 52)
        (c := rjust 16 (fmtFix 8 lon) ++ rjust 16 (fmtFix 8 lat))
        (suffix_rjust 16 (fmtFix 2 relief)) (by simp [ncol, nrow, narea, nrel])
      simpa only [List.append_assoc] using this
    · refine ⟨by dsimp only; decide, ?_⟩
      have := suffix_take (a := rjust 10 (fmtInt col) ++ (rjust 10 (fmtInt row) ++
          (rjust 16 (fmtFix 2 area) ++ rjust 16 (fmtFix 2 relief)))) (e := 68)
        (c := rjust 16 (fmtFix 8 lat))
        (suffix_rjust 16 (fmtFix 8 lon)) (by simp [ncol, nrow, narea, nrel, nlon])
      simpa only [List.append_assoc] using this
    · refine ⟨by dsimp only; decide, ?_⟩
      have := suffix_take (a := rjust 10 (fmtInt col) ++ (rjust 10 (fmtInt row) ++
          (rjust 16 (fmtFix 2 area) ++ (rjust 16 (fmtFix 2 relief) ++
            rjust 16 (fmtFix 8 lon))))) (e := 84) (c := [])
        (suffix_rjust 16 (fmtFix 8 lat)) (by simp [ncol, nrow, narea, nrel, nlon, nlat])
      simpa only [List.append_assoc, List.append_nil] using this

/-! ## C89: the label of the time column -/

/-- Names of the time units, and what stands for them in the header. -/
def timeLabels : List (String × String) :=
  [("seconds", "Time [sec]"), ("minutes", "Time [min]"), ("hours", "Time [hrs]"),
   ("days", "Time [days]"), ("months", "Time [mon]"), ("years", "Time [yrs]")]

/-- **C89 (time label).** A header is written exactly for the six known time units; it begins with
the label of that unit, right-aligned in fifteen characters, and is underlined over its length
when the names fit their columns. -/
theorem C89_time_label (units : String) (names : List Text) :
    (∀ hdr, headerLines units names = some hdr →
      ∃ label l1 l2, (units, label) ∈ timeLabels ∧ hdr = [l1, l2] ∧
        l1.take 15 = rjust 15 label.toList ∧ l2 = List.replicate l2.length '-' ∧
        ((∀ s ∈ names, s.length ≤ 15) → l2.length = l1.length)) ∧
    ((headerLines units names).isSome ↔ ∃ label, (units, label) ∈ timeLabels) := by
  have key : ∀ u, unitLabel units = some u → (units, "Time [" ++ u ++ "]") ∈ timeLabels := by
    intro u hu
    unfold unitLabel at hu
    split_ifs at hu with h1 h2 h3 h4 h5 h6 <;> cases hu <;> subst units <;> decide
  refine ⟨?_, ?_⟩
  · intro hdr h
    unfold headerLines at h
    split at h
    · cases h
    · rename_i u hu
      cases h
      have hm := key u hu
      have hlen : (rjust 15 (("Time [" ++ u ++ "]").toList)).length = 15 := by
        unfold unitLabel at hu
        split_ifs at hu <;> cases hu <;> decide
      refine ⟨_, _, _, hm, rfl, List.take_left' hlen, by simp, ?_⟩
      intro hn
      rw [List.length_append, hlen, List.length_replicate, List.length_flatMap]
      have : (names.map fun s => (rjust 15 s).length) = names.map fun _ => 15 := by
        apply List.map_congr_left
        intro s hs
        exact rjust_length (hn s hs)
      rw [this]
      simp
      omega
  · constructor
    · intro h
      unfold headerLines at h
      split at h
      · cases h
      · rename_i u hu
        exact ⟨_, key u hu⟩
    · rintro ⟨label, h⟩
      simp only [timeLabels, List.mem_cons, Prod.mk.injEq, List.not_mem_nil, or_false] at h
      rcases h with ⟨rfl, _⟩ | ⟨rfl, _⟩ | ⟨rfl, _⟩ | ⟨rfl, _⟩ | ⟨rfl, _⟩ | ⟨rfl, _⟩ <;>
        simp (decide := true) [headerLines, unitLabel]

end Table
