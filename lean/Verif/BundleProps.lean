import Mathlib.Tactic.Linarith
import Mathlib.Tactic.Ring
import Mathlib.Tactic.Positivity
import Mathlib.Tactic.NormNum
import Verif.BundleModel

set_option autoImplicit false

/-!
# Bundled grids and angles: properties C229, C230
-/

namespace Bundle

/-! ## Specification -/

/-- Grid number `k` of a stack of grids with `n` values each. -/
def frame {α : Type} (n : ℕ) (vals : List α) (k : ℕ) : List α := (vals.drop (k * n)).take n

/-- The last `w` decimal digits of a number, with leading zeros. -/
def pad : ℕ → ℕ → List ℕ
  | 0, _ => []
  | w + 1, t => pad w (t / 10) ++ [48 + t % 10]

/-- The number as it is printed, without leading zeros, for numbers below 100. -/
def printed (t : ℕ) : List ℕ := if t < 10 then [48 + t] else [48 + t / 10, 48 + t % 10]

/-- The angle meant by a sign, degrees, minutes and seconds. -/
def angle (neg : Bool) (d mn sc : ℚ) : ℚ := (if neg then -1 else 1) * (d + mn / 60 + sc / 3600)

/-! ## C229: bundling -/

theorem frame_flatten {α : Type} (n : ℕ) (ls : List (List α)) (h : ∀ l ∈ ls, l.length = n) (k : ℕ) :
    frame n ls.flatten k = (ls[k]?).getD [] := by
  unfold frame
  induction ls generalizing k with
  | nil => simp
  | cons l ls ih =>
    have hl : l.length = n := h l List.mem_cons_self
    cases k with
    | zero =>
      simp only [Nat.zero_mul, List.drop_zero, List.flatten_cons, List.getElem?_cons_zero, Option.getD_some]
      rw [List.take_append_of_le_length (by omega), List.take_of_length_le (by omega)]
    | succ k =>
      rw [List.flatten_cons, List.getElem?_cons_succ, ← ih (fun x hx => h x (List.mem_cons_of_mem _ hx)) k]
      congr 1
      have : (k + 1) * n = l.length + k * n := by rw [hl]; ring
      rw [this, List.drop_append]
      simp

/-- **C229** The grids of the new file are those of the found files in the order of their names as texts, whatever order they
were found in. -/
theorem C229_frames {α : Type} (fs : Files α) (n : ℕ) (found : List Name)
    (hf : ∀ f ∈ found, ∃ vals, fs f = some vals ∧ n ≤ vals.length) (names : List Name) (hp : names.Perm found)
    (hs : names.Pairwise (· ≤ ·)) (k : ℕ) (f : Name) (hk : names[k]? = some f) :
    frame n (written fs n found) k = ((fs f).getD []).take n ∧
      (written fs n found).length = n * names.length := by
  have he : found.insertionSort (· ≤ ·) = names := by
    apply List.Perm.eq_of_pairwise (le := (· ≤ ·))
    · intro a b _ _ h1 h2
      exact le_antisymm h1 h2
    · exact List.pairwise_insertionSort _ _
    · exact hs
    · exact (List.perm_insertionSort _ _).trans hp.symm
  have hlen : ∀ l ∈ names.map (fun f => ((fs f).getD []).take n), l.length = n := by
    intro l hl
    obtain ⟨g, hg, rfl⟩ := List.mem_map.mp hl
    obtain ⟨vals, hv, hn⟩ := hf g (hp.mem_iff.mp hg)
    rw [hv, Option.getD_some, List.length_take]
    omega
  unfold written
  rw [he]
  constructor
  · rw [frame_flatten n _ hlen, List.getElem?_map, hk]
    rfl
  · rw [List.length_flatten]
    clear hk hs he hp
    induction names with
    | nil => rfl
    | cons a names ih =>
      have h1 := hlen (((fs a).getD []).take n) (by simp)
      rw [List.map_cons, List.map_cons, List.sum_cons, h1,
        ih (fun l hl => hlen l (List.mem_cons_of_mem _ hl)), List.length_cons]
      ring

theorem pad_length (w t : ℕ) : (pad w t).length = w := by
  induction w generalizing t with
  | zero => rfl
  | succ w ih => simp [pad, ih]

/-- Numbers with the same number of digits are ordered as their texts. -/
theorem pad_lt (w a b : ℕ) (h : a < b) (hb : b < 10 ^ w) (x y : List ℕ) : pad w a ++ x < pad w b ++ y := by
  induction w generalizing a b x y with
  | zero =>
    simp at hb
    omega
  | succ w ih =>
    simp only [pad, List.append_assoc]
    by_cases hd : a / 10 < b / 10
    · exact ih _ _ hd (by rw [pow_succ] at hb; omega) _ _
    · have he : a / 10 = b / 10 := by omega
      rw [he]
      apply List.append_left_lt
      apply List.Lex.rel
      omega

/-- **C229** With a time index of fixed width in the names, grid number `t` of the new file is the one of time index `t`,
whatever order the files were found in. -/
theorem C229_time_order {α : Type} (fs : Files α) (n w T : ℕ) (pre ext : Name) (hT : T ≤ 10 ^ w) (found : List Name)
    (hfound : found.Perm ((List.range T).map (fun t => pre ++ (pad w t ++ ext))))
    (hf : ∀ f ∈ found, ∃ vals, fs f = some vals ∧ vals.length = n) (t : ℕ) (ht : t < T) :
    frame n (written fs n found) t = (fs (pre ++ (pad w t ++ ext))).getD [] := by
  have hk : ((List.range T).map (fun t => pre ++ (pad w t ++ ext)))[t]? = some (pre ++ (pad w t ++ ext)) := by
    rw [List.getElem?_map, List.getElem?_range ht]
    rfl
  have hs : ((List.range T).map (fun t => pre ++ (pad w t ++ ext))).Pairwise (· ≤ ·) := by
    rw [List.pairwise_map]
    have := List.pairwise_lt_range (n := T)
    refine List.Pairwise.imp_of_mem ?_ this
    intro a b ha hb hab
    apply le_of_lt
    apply List.append_left_lt
    exact pad_lt w a b hab (by have := List.mem_range.mp hb; omega) _ _
  have hmem : pre ++ (pad w t ++ ext) ∈ found := hfound.mem_iff.mpr (List.mem_of_getElem? hk)
  rw [(C229_frames fs n found (fun f h => by
    obtain ⟨v, h1, h2⟩ := hf f h
    exact ⟨v, h1, h2.ge⟩) _ hfound.symm hs t _ hk).1]
  obtain ⟨v, h1, h2⟩ := hf _ hmem
  rw [h1, Option.getD_some, List.take_of_length_le (by omega)]

/-- **C229** Without leading zeros the grids are out of order as soon as there are eleven of them: grid number 2 is the one of
time index 10. -/
theorem C229_not_padded {α : Type} (fs : Files α) (n : ℕ) (pre ext : Name) (hext : ∀ c ∈ ext, c < 48) (found : List Name)
    (hfound : found.Perm ((List.range 11).map (fun t => pre ++ (printed t ++ ext))))
    (hf : ∀ f ∈ found, ∃ vals, fs f = some vals ∧ vals.length = n) :
    frame n (written fs n found) 2 = (fs (pre ++ (printed 10 ++ ext))).getD [] := by
  have hperm : ([0, 1, 10, 2, 3, 4, 5, 6, 7, 8, 9] : List ℕ).Perm (List.range 11) := by decide
  have hf2 : (([0, 1, 10, 2, 3, 4, 5, 6, 7, 8, 9] : List ℕ).map (fun t => pre ++ (printed t ++ ext))).Perm found :=
    (hperm.map _).trans hfound.symm
  have key : ∀ a b : ℕ, printed a ++ ext < printed b ++ ext → pre ++ (printed a ++ ext) ≤ pre ++ (printed b ++ ext) :=
    fun a b h => le_of_lt (List.append_left_lt h)
  have hrel : ∀ (a b : ℕ) (x y : List ℕ), a < b → (a :: x) < (b :: y) := fun a b x y h => List.Lex.rel h
  have h110 : printed 1 ++ ext < printed 10 ++ ext := by
    change (49 :: ext) < (49 :: 48 :: ext)
    apply List.Lex.cons
    cases ext with
    | nil => exact List.Lex.nil
    | cons c ext => exact hrel _ _ _ _ (hext c List.mem_cons_self)
  have hs : (([0, 1, 10, 2, 3, 4, 5, 6, 7, 8, 9] : List ℕ).map (fun t => pre ++ (printed t ++ ext))).Pairwise (· ≤ ·) := by
    rw [List.pairwise_map]
    refine List.Pairwise.imp (R := fun a b => printed a ++ ext < printed b ++ ext) (fun h => key _ _ h) ?_
    simp only [List.pairwise_cons, List.mem_cons, List.not_mem_nil, or_false, forall_eq_or_imp, forall_eq]
    refine ⟨⟨?_, ?_, ?_, ?_, ?_, ?_, ?_, ?_, ?_, ?_⟩, ⟨h110, ?_, ?_, ?_, ?_, ?_, ?_, ?_, ?_⟩,
      ⟨?_, ?_, ?_, ?_, ?_, ?_, ?_, ?_⟩, ⟨?_, ?_, ?_, ?_, ?_, ?_, ?_⟩, ⟨?_, ?_, ?_, ?_, ?_, ?_⟩, ⟨?_, ?_, ?_, ?_, ?_⟩,
      ⟨?_, ?_, ?_, ?_⟩, ⟨?_, ?_, ?_⟩, ⟨?_, ?_⟩, ?_, ?_⟩
    all_goals first
      | exact hrel _ _ _ _ (by norm_num)
      | simp
  have hk : (([0, 1, 10, 2, 3, 4, 5, 6, 7, 8, 9] : List ℕ).map (fun t => pre ++ (printed t ++ ext)))[2]? =
      some (pre ++ (printed 10 ++ ext)) := rfl
  rw [(C229_frames fs n found (fun f h => by
    obtain ⟨v, h1, h2⟩ := hf f h
    exact ⟨v, h1, h2.ge⟩) _ hf2 hs 2 _ hk).1]
  obtain ⟨v, h1, h2⟩ := hf _ (hf2.mem_iff.mp (List.mem_of_getElem? hk))
  rw [h1, Option.getD_some, List.take_of_length_le (by omega)]

/-- **C229** An existing file is not overwritten, and no other file is changed. -/
theorem C229_others {α : Type} (fs : Files α) (n : ℕ) (found : List Name) (new : Name) :
    (∀ v, fs new = some v → rtgToRts fs n found new = fs) ∧
    (∀ f, f ≠ new → rtgToRts fs n found new f = fs f) ∧
    (fs new = none → rtgToRts fs n found new new = some (written fs n found)) := by
  unfold rtgToRts
  refine ⟨?_, ?_, ?_⟩
  · intro v hv
    rw [hv]
  · intro f hf
    cases fs new with
    | none => exact if_neg hf
    | some v => rfl
  · intro h
    rw [h]
    exact if_pos rfl

/-- **C229** The script does the same; the bytes of the values are not swapped, whatever swapping them would do. -/
theorem C229_script {α : Type} (swap : α → α) (fs : Files α) (a b : ℕ) (found : List Name) (new : Name) :
    rtg2rts swap fs (.str a) (.str b) found new = .ok (rtgToRts fs (a * b) found new) := by
  unfold rtg2rts rtgToRts
  cases fs new <;> rfl

/-- **C229** Called from Python with numbers, the script fails and leaves all files as they are. -/
theorem C229_script_numbers {α : Type} (swap : α → α) (fs : Files α) (a : ℕ) (ny : Arg) (found : List Name) (new : Name)
    (h : fs new = none) : ∃ e, rtg2rts swap fs (.int a) ny found new = .error e := by
  unfold rtg2rts
  rw [h]
  exact ⟨_, rfl⟩

/-- A file that is too short shifts all grids after it. -/
theorem C229_short_file : ∃ (fs : Files ℕ), fs [1] = some [10] ∧ fs [2] = some [20, 21] ∧
    frame 2 (written fs 2 [[1], [2]]) 0 = [10, 20] ∧ frame 2 (written fs 2 [[1], [2]]) 1 = [21] :=
  ⟨fun f => if f = [1] then some [10] else if f = [2] then some [20, 21] else none, rfl, rfl, by decide, by decide⟩

example : frame 2 (written (fun f => some [f.getD 1 0, 7]) 2 [[103, 50], [103, 48], [103, 49]]) 1 = [49, 7] := by decide

example : ([[103, 50], [103, 48], [103, 49]] : List Name).Perm ((List.range 3).map (fun t => [103] ++ (pad 1 t ++ []))) := by
  decide

/-! ## C230: degrees, minutes and seconds -/

/-- **C230** The angle is right exactly when it is not a negative angle of less than one degree. -/
theorem C230_exact_partial (neg : Bool) (d mn sc : ℚ) (hd : 0 ≤ d) (hm : 0 ≤ mn) (hs : 0 ≤ sc) :
    decDeg neg d mn sc = angle neg d mn sc ↔ ¬ (neg = true ∧ d = 0 ∧ (0 < mn ∨ 0 < sc)) := by
  unfold decDeg angle
  cases neg with
  | false =>
    have : ¬ d < 0 := by linarith
    simp [this]
  | true =>
    simp only [if_true]
    by_cases h : d = 0
    · subst h
      simp only [neg_zero, lt_irrefl, if_false]
      constructor
      · rintro he ⟨_, _, h | h⟩
        · have : 0 < mn / 60 := by positivity
          have : 0 ≤ sc / 3600 := by positivity
          linarith
        · have : 0 < sc / 3600 := by positivity
          have : 0 ≤ mn / 60 := by positivity
          linarith
      · intro hn
        have h1 : mn = 0 := le_antisymm (not_lt.mp fun hh => hn ⟨trivial, trivial, Or.inl hh⟩) hm
        have h2 : sc = 0 := le_antisymm (not_lt.mp fun hh => hn ⟨trivial, trivial, Or.inr hh⟩) hs
        rw [h1, h2]
        norm_num
    · have hpos : 0 < d := lt_of_le_of_ne hd (Ne.symm h)
      have : -d < 0 := by linarith
      rw [if_pos this]
      constructor
      · rintro _ ⟨_, h0, _⟩
        exact h h0
      · intro _
        ring

/-- **C230** In that case the sign is lost. -/
theorem C230_violated (mn sc : ℚ) : decDeg true 0 mn sc = - angle true 0 mn sc := by
  unfold decDeg angle
  simp

example : decDeg true 105 30 36 = -105.51 ∧ decDeg true 0 30 0 = 0.5 := by
  constructor <;> norm_num [decDeg]

end Bundle
