import Verif.D8LocalProps2
import Verif.D8Props

/-!
# Properties of the local D8 component, continued: flow codes of a part of the grid
-/

set_option autoImplicit false
set_option linter.unusedSectionVars false

namespace D8Local

open D8 D8Spec

section
variable {K : Type*} [Field K] [LinearOrder K] [IsStrictOrderedRing K]
variable {ny nx : ℕ}

/-! ## Lemmas -/

theorem flatID_eq (c : Cell ny nx) : flatID c = idOf nx c.1 c.2 := by
  simp [flatID, idOf]

theorem inIDs_all (c : Cell ny nx) : inIDs (allIDs ny nx) c = true := by
  unfold inIDs allIDs
  rw [decide_eq_true_eq, List.mem_map]
  refine ⟨c.1.val * nx + c.2.val, List.mem_range.2 ?_, rfl⟩
  have h1 := c.1.isLt
  have h2 := c.2.isLt
  nlinarith

theorem isFlatIn_all (d : Cell ny nx → ℤ) (c : Cell ny nx) :
    isFlatIn (allIDs ny nx) d c = isFlat d c := by
  simp [isFlatIn, inIDs_all]

theorem fixableIn_all (d : Cell ny nx → ℤ) (c : Cell ny nx) :
    fixableIn (allIDs ny nx) d c = fixable d c := by
  simp [fixableIn, isFlatIn_all, fixable]

theorem linkPassIn_all (d : Cell ny nx → ℤ) : linkPassIn (allIDs ny nx) d = linkPass d := by
  funext c; simp [linkPassIn, fixableIn_all, linkPass]

theorem nFlatsIn_all (d : Cell ny nx → ℤ) : nFlatsIn (allIDs ny nx) d = nFlats d := by
  simp [nFlatsIn, isFlatIn_all, nFlats]

theorem nFixableIn_all (d : Cell ny nx → ℤ) : nFixableIn (allIDs ny nx) d = nFixable d := by
  simp [nFixableIn, fixableIn_all, nFixable]

/-- Linking all cells: the same as in the global component, except that what is left negative is
zeroed when the loop ended early. -/
theorem linkLoopIn_all : ∀ (fuel : ℕ) (d d' : Cell ny nx → ℤ),
    linkLoopIn (allIDs ny nx) fuel d = some d' →
    ∃ g, linkLoop fuel d = some g ∧ ∀ c, d' c = g c ∨ (g c < 0 ∧ d' c = 0) := by
  intro fuel
  induction fuel with
  | zero => intro d d' h; simp [linkLoopIn] at h
  | succ n ih =>
    intro d d' h
    unfold linkLoopIn at h
    unfold linkLoop
    simp only [nFlatsIn_all, nFixableIn_all, linkPassIn_all] at h
    split_ifs at h with h1 h2 h3
    · cases h
      rw [if_pos h1]
      exact ⟨d, rfl, fun c => Or.inl rfl⟩
    · cases h
      rw [if_neg h1, if_pos (Or.inl h2)]
      exact ⟨_, rfl, fun c => Or.inl rfl⟩
    · cases h
      rw [if_neg h1, if_pos (Or.inr h3)]
      refine ⟨_, rfl, fun c => ?_⟩
      simp only [inIDs_all, Bool.true_and, decide_eq_true_eq]
      split_ifs with h4
      · exact Or.inr ⟨h4, rfl⟩
      · exact Or.inl rfl
    · rw [if_neg h1, if_neg (by tauto)]
      exact ih _ _ h

/-- Codes are single directions, zero, or negative (not decided). -/
def Clean (d : Cell ny nx → ℤ) : Prop := ∀ c, d c ≤ 0 ∨ ∃ k, d c = codeList k

theorem clean_start (cfg : Config K) (z : Cell ny nx → K) (c : Cell ny nx) :
    D8.breakTies (startCode cfg z) c ≤ 0 ∨ ∃ k, D8.breakTies (startCode cfg z) c = codeList k := by
  unfold D8.breakTies
  split_ifs with h
  · right
    rcases startCode_cases cfg z c with h0 | ⟨-, h1⟩ | ⟨-, h1⟩ | h1
    · omega
    · rw [h1, steepSum_eq]
      obtain ⟨k0, hk0⟩ := exists_maxSlope (slope cfg z c)
      obtain ⟨k, -, hr⟩ := resolve_codeOf
        (fun k => decide (slope cfg z c k = maxSlope (slope cfg z c))) ⟨k0, by simpa using hk0⟩
      exact ⟨k, hr⟩
    · have := (codeOf_bounds (fun k => decide (slope cfg z c k = maxSlope (slope cfg z c)))).1
      rw [← steepSum_eq] at this
      omega
    · omega
  · left; omega

theorem clean_link {fuel : ℕ} {d d' : Cell ny nx → ℤ} (h : Clean d) (hl : linkLoop fuel d = some d') :
    Clean d' := by
  refine linkLoop_induct (P := Clean) ?_ fuel d d' h hl
  intro d hd c
  by_cases hf : fixable d c = true
  · obtain ⟨k, hk, -⟩ := fixable_spec hf
    exact Or.inr ⟨k, hk⟩
  · have : linkPass d c = d c := by simp [linkPass, hf]
    rw [this]; exact hd c

theorem validCodeMap_clean {x : ℤ} (h : x ≤ 0 ∨ ∃ k, x = codeList k) :
    validCodeMap x = if x < 0 then 0 else x := by
  split_ifs with hx
  · unfold validCodeMap; rw [if_pos (Or.inl hx)]
  · rcases h with h | ⟨k, rfl⟩
    · have : x = 0 := by omega
      subst this; decide
    · exact validCodeMap_codeList.2 rfl

/-- The loop over a part of the grid stops. -/
theorem linkLoopIn_isSome (ids : List ℤ) (fuel : ℕ) (d : Cell ny nx → ℤ)
    (h : nFlatsIn ids d < fuel) : (linkLoopIn ids fuel d).isSome = true := by
  induction fuel generalizing d with
  | zero => omega
  | succ n ih =>
    unfold linkLoopIn
    split_ifs with h0 h1 h2
    · rfl
    · rfl
    · rfl
    · apply ih
      have hlt : nFlatsIn ids (linkPassIn ids d) < nFlatsIn ids d := by
        unfold nFlatsIn
        apply Finset.card_lt_card
        have key : ∀ c, fixableIn ids d c = true → ∃ k, linkPassIn ids d c = codeList k := by
          intro c hc
          have hf : fixable d c = true := by
            simp only [fixableIn, isFlatIn, Bool.and_eq_true] at hc
            simp only [fixable, Bool.and_eq_true]
            exact ⟨hc.1.2, hc.2⟩
          obtain ⟨k, hk, -⟩ := fixable_spec hf
          refine ⟨k, ?_⟩
          rw [← hk]
          simp [linkPassIn, hc, linkPass, hf]
        rw [Finset.ssubset_iff_of_subset]
        · obtain ⟨c, hc⟩ := Finset.card_pos.1 (Nat.pos_of_ne_zero h2)
          simp only [Finset.mem_filter, Finset.mem_univ, true_and] at hc
          refine ⟨c, ?_, ?_⟩
          · simp only [fixableIn, Bool.and_eq_true] at hc
            simp [hc.1]
          · obtain ⟨k, hk⟩ := key c hc
            have := codeList_pos k
            simp only [Finset.mem_filter, Finset.mem_univ, true_and, isFlatIn, isFlat, hk,
              Bool.and_eq_true, decide_eq_true_eq]
            omega
        · intro c hc
          simp only [Finset.mem_filter, Finset.mem_univ, true_and] at hc ⊢
          by_cases hf : fixableIn ids d c = true
          · simp only [fixableIn, Bool.and_eq_true] at hf
            exact hf.1
          · have : linkPassIn ids d c = d c := by simp [linkPassIn, hf]
            simpa [isFlatIn, isFlat, this] using hc
      omega

/-! ## C170: the flow codes of the local component -/

/-- Updating the flow codes always ends. -/
theorem C170_terminates (cfg : Config K) (z : Cell ny nx → K) (demGiven : Bool) (s : LState ny nx) :
    (updateFlowGridL cfg (ny * nx + 1) z demGiven s).isSome = true := by
  have key : ∀ (ids : List ℤ) (d : Cell ny nx → ℤ), (linkLoopIn ids (ny * nx + 1) d).isSome = true := by
    intro ids d
    apply linkLoopIn_isSome
    unfold nFlatsIn
    refine Nat.lt_succ_of_le ((Finset.card_le_univ _).trans ?_)
    simp
  unfold updateFlowGridL
  dsimp only
  split
  · rfl
  · split_ifs
    all_goals first
      | rfl
      | (rw [Option.isSome_map]; exact key _ _)

/-- The first update computes the codes of all cells: they agree with those of the global
component, except that a cell without direction may be left with a negative number where the global
component has 0. -/
theorem C170_first_update_partial {cfg : Config K} (hb : cfg.breakTies = true) {fuel : ℕ}
    {z : Cell ny nx → K} {s s' : LState ny nx} (hs : s.ids = none)
    (h : updateFlowGridL cfg fuel z false s = some (.ok s')) :
    s'.ids = some (allIDs ny nx) ∧
    ∃ codes, updateFlowGrid cfg fuel z = some codes ∧
      ∀ c, s'.d8 c = codes c ∨ (codes c = 0 ∧ s'.d8 c < 0) := by
  unfold updateFlowGridL at h
  rw [hs] at h
  simp only [Bool.false_and, Bool.false_eq_true, if_false, hb, if_true] at h
  have hd : breakIDs (allIDs ny nx) (startIDs cfg z (allIDs ny nx) s.d8) =
      D8.breakTies (startCode cfg z) := by
    have : startIDs cfg z (allIDs ny nx) s.d8 = startCode cfg z := by
      funext c; simp [startIDs, inIDs_all]
    rw [this]; funext c; simp [breakIDs, inIDs_all]
  rw [hd] at h
  unfold updateFlowGrid
  simp only [hb, if_true]
  by_cases hl : cfg.linkFlats = true
  · simp only [hl, if_true, Option.map_eq_some_iff] at h ⊢
    obtain ⟨d, hlk, he⟩ := h
    obtain ⟨g, hg, hc⟩ := linkLoopIn_all _ _ _ hlk
    injection he with he
    subst he
    refine ⟨rfl, _, ⟨g, hg, rfl⟩, fun c => ?_⟩
    have hcl := clean_link (fun c => clean_start cfg z c) hg
    show d c = validCodeMap (g c) ∨ (validCodeMap (g c) = 0 ∧ d c < 0)
    rw [validCodeMap_clean (hcl c)]
    rcases hc c with e | ⟨e1, e2⟩
    · rw [e]
      split_ifs with hx
      · exact Or.inr ⟨rfl, hx⟩
      · exact Or.inl rfl
    · rw [if_pos e1]; exact Or.inl e2
  · have hl' : cfg.linkFlats = false := by simpa using hl
    simp only [hl', Bool.false_eq_true, if_false, Option.map_some, Option.some.injEq] at h ⊢
    injection h with h
    subst h
    refine ⟨rfl, _, rfl, fun c => ?_⟩
    show D8.breakTies (startCode cfg z) c = _ ∨ _
    rw [validCodeMap_clean (clean_start cfg z c)]
    split_ifs with hx
    · exact Or.inr ⟨rfl, hx⟩
    · exact Or.inl rfl

/-- Without flat linking the codes of the first update are those of the global component. -/
theorem startCode_nonneg {cfg : Config K} (hl : cfg.linkFlats = false) (z : Cell ny nx → K)
    (c : Cell ny nx) : 0 ≤ startCode cfg z c := by
  have hb := (codeOf_bounds (fun k => decide (slope cfg z c k = maxSlope (slope cfg z c)))).1
  rw [← steepSum_eq] at hb
  unfold startCode
  simp only [hl, if_true]
  split_ifs <;> first | exact le_refl _ | exact hb

/-- Without linking, the global codes cell by cell. -/
theorem global_codes {cfg : Config K} (hb : cfg.breakTies = true) (hl : cfg.linkFlats = false)
    (fuel : ℕ) (z : Cell ny nx → K) :
    updateFlowGrid cfg fuel z = some (D8.breakTies (startCode cfg z)) := by
  unfold updateFlowGrid
  simp only [hb, hl, if_true, Bool.false_eq_true, if_false, Option.map_some, Option.some.injEq]
  funext c
  rw [validCodeMap_clean (clean_start cfg z c), if_neg]
  have h0 := startCode_nonneg hl z c
  unfold D8.breakTies
  split_ifs with h
  · have := clean_start cfg z c
    unfold D8.breakTies at this
    rw [if_pos h] at this
    unfold resolve
    omega
  · omega

/-- Away from the border, the neighbours used for the slopes touch the cell. -/
theorem nbr_touch {c : Cell ny nx} (hc : ¬ OnBorder c) (k : Fin 8) :
    Touch c.1 c.2 (nbr k c).1 (nbr k c).2 := by
  unfold OnBorder at hc
  have h1 := c.1.isLt
  have h2 := c.2.isLt
  have i1 := inc_val c.1
  have i2 := inc_val c.2
  have d1 := dec_val c.1
  have d2 := dec_val c.2
  rw [if_neg (by omega)] at i1 i2 d1 d2
  unfold Touch
  simp only [abs_le]
  fin_cases k <;> simp only [nbr] <;> omega

theorem startCode_border {cfg : Config K} (hlr : cfg.lrPeriodic = false) (htb : cfg.tbPeriodic = false)
    (z : Cell ny nx → K) {c : Cell ny nx} (hc : OnBorder c) : startCode cfg z c = 0 := by
  unfold OnBorder at hc
  unfold startCode
  simp only [hlr, htb, true_and]
  by_cases h1 : onTB c = true
  · rw [if_pos h1]
  · rw [if_neg h1, if_pos]
    simp only [onTB, onLR, decide_eq_true_eq] at h1 ⊢
    omega

theorem startCode_congr {cfg : Config K} {z z' : Cell ny nx → K} {c : Cell ny nx} (h0 : z c = z' c)
    (h : ∀ k, z (nbr k c) = z' (nbr k c)) : startCode cfg z c = startCode cfg z' c := by
  have : slope cfg z c = slope cfg z' c := by
    funext k; unfold slope; rw [h0, h k]
  unfold startCode
  rw [this, h0]

/-- **The local update is as good as the global one.**  Without periodic boundaries and without
flat linking: when the DEM changes in one cell only and the component is told that cell, updating
the codes around it gives exactly the codes the global component computes from the new DEM. -/
theorem C170_local_update_partial {cfg : Config K} (hb : cfg.breakTies = true)
    (hl : cfg.linkFlats = false) (hlr : cfg.lrPeriodic = false) (htb : cfg.tbPeriodic = false)
    (fuel : ℕ) {z z' : Cell ny nx → K} (e : Cell ny nx) (hz : ∀ c, c ≠ e → z' c = z c)
    {s : LState ny nx} (hids : s.ids = some [flatID e])
    (hs : updateFlowGrid cfg fuel z = some s.d8) :
    ∃ s', updateFlowGridL cfg fuel z' false s = some (.ok s') ∧
      updateFlowGrid cfg fuel z' = some s'.d8 := by
  rw [global_codes hb hl] at hs ⊢
  have hs' : s.d8 = D8.breakTies (startCode cfg z) := (Option.some.inj hs).symm
  unfold updateFlowGridL
  rw [hids]
  simp only [List.length_singleton, if_true, Bool.false_and, Bool.false_eq_true, if_false, hb, hl,
    Option.map_some]
  refine ⟨_, rfl, ?_⟩
  rw [Option.some.injEq]
  funext c
  have hidr : ∀ i ∈ [flatID e], 0 ≤ i ∧ i < ((ny * nx : ℕ) : ℤ) := by
    intro i hi
    rw [List.mem_singleton.1 hi, flatID_eq]
    exact idOf_lt e.1.isLt e.2.isLt
  by_cases hc : inIDs (getNeighbors ny nx [flatID e] true) c = true
  · have e1 : startIDs cfg z' (getNeighbors ny nx [flatID e] true) s.d8 c = startCode cfg z' c := by
      simp [startIDs, hc]
    simp only [breakIDs, hc, if_true, D8.breakTies, e1]
  · have e1 : startIDs cfg z' (getNeighbors ny nx [flatID e] true) s.d8 c = s.d8 c := by
      simp [startIDs, hc]
    have e2 : breakIDs (getNeighbors ny nx [flatID e] true)
        (startIDs cfg z' (getNeighbors ny nx [flatID e] true) s.d8) c = s.d8 c := by
      simp [breakIDs, hc, e1]
    dsimp only
    rw [e2, hs']
    suffices h : startCode cfg z' c = startCode cfg z c by
      unfold D8.breakTies; rw [h]
    by_cases hbd : OnBorder c
    · rw [startCode_border hlr htb _ hbd, startCode_border hlr htb _ hbd]
    · have hnt : ¬ Touch c.1 c.2 e.1 e.2 := by
        intro ht
        apply hc
        unfold inIDs
        rw [decide_eq_true_eq, mem_near hidr]
        exact ⟨c.1, c.2, e.1, e.2, c.1.isLt, c.2.isLt, e.1.isLt, e.2.isLt, flatID_eq c,
          by rw [flatID_eq]; exact List.mem_singleton.2 rfl, ht⟩
      apply startCode_congr
      · apply hz
        rintro rfl
        exact hnt (by simp [Touch])
      · intro k
        apply hz
        intro he
        have := nbr_touch hbd k
        rw [he] at this
        exact hnt this

/-- With two or more cells to update, updating the flow codes always fails; so does handing over a
DEM in a grid of two or more cells. -/
theorem C170_several_cells_violated (cfg : Config K) (fuel : ℕ) (z : Cell ny nx → K) (g : Bool)
    (s : LState ny nx) (ids : List ℤ) (hs : s.ids = some ids) (h : 2 ≤ ids.length) :
    ∃ m, updateFlowGridL cfg fuel z g s = some (.error m) := by
  unfold updateFlowGridL
  rw [hs]
  simp only [if_neg (show ¬ ids.length = 1 by omega)]
  exact ⟨_, rfl⟩

theorem C170_dem_argument_violated (cfg : Config K) (fuel : ℕ) (z : Cell ny nx → K)
    (s : LState ny nx) (h : 2 ≤ ny * nx) :
    ∃ m, updateFlowGridL cfg fuel z true s = some (.error m) := by
  unfold updateFlowGridL
  dsimp only
  split
  · exact ⟨_, rfl⟩
  · rw [if_pos (by rw [Bool.true_and, decide_eq_true_eq]; omega)]
    exact ⟨_, rfl⟩

/-! ## C171: the update of all D8 variables -/

/-- An update gets through exactly when the codes can be computed and none of them changed. -/
theorem C171_completes_iff (cfg : Config K) (fuel : ℕ) (z : Cell ny nx → K) (g : Bool)
    (s : LState ny nx) :
    (∃ s', updateL cfg fuel z g s = some (.ok s')) ↔
      ∃ s', updateFlowGridL cfg fuel z g s = some (.ok s') ∧ s'.changed = false := by
  unfold updateL
  constructor
  · rintro ⟨s', h⟩
    rw [Option.map_eq_some_iff] at h
    obtain ⟨r, hr, h⟩ := h
    rcases r with m | s1
    · cases h
    · refine ⟨s1, hr, ?_⟩
      by_contra hch
      have hch' : s1.changed = true := by simpa using hch
      have hp : ∀ s2, updateParents cfg.lrPeriodic cfg.tbPeriodic s1 = .ok s2 → s2.changed = true := by
        intro s2 h2
        unfold updateParents at h2
        simp only [hch', Bool.true_eq_false, if_false] at h2
        split_ifs at h2
        cases h2
        rfl
      cases h1 : updateParents cfg.lrPeriodic cfg.tbPeriodic s1 with
      | error m =>
        change (updateParents cfg.lrPeriodic cfg.tbPeriodic s1 >>= _) = _ at h
        rw [h1] at h; cases h
      | ok s2 =>
        have hch2 := hp s2 h1
        change (updateParents cfg.lrPeriodic cfg.tbPeriodic s1 >>= fun s => updateWidths s >>= _) = _ at h
        rw [h1] at h
        change (updateWidths s2 >>= _) = _ at h
        unfold updateWidths at h
        simp only [hch2, Bool.true_eq_false, if_false] at h
        split_ifs at h
        · cases h
        · change updateAreas s2 = _ at h
          unfold updateAreas at h
          simp only [hch2, Bool.true_eq_false, if_false] at h
          cases h
  · rintro ⟨s1, hr, hch⟩
    refine ⟨s1, ?_⟩
    rw [hr]
    simp only [Option.map_some, Option.some.injEq]
    change (updateParents cfg.lrPeriodic cfg.tbPeriodic s1 >>= fun s => updateWidths s >>= _) = _
    have h1 : updateParents cfg.lrPeriodic cfg.tbPeriodic s1 = .ok s1 := by
      unfold updateParents; rw [if_pos hch]
    have h2 : updateWidths s1 = .ok s1 := by unfold updateWidths; rw [if_pos hch]
    have h3 : updateAreas s1 = .ok s1 := by unfold updateAreas; rw [if_pos hch]
    rw [h1]
    change (updateWidths s1 >>= _) = _
    rw [h2]
    exact h3

/-- For every DEM in which some cell has a flow direction, the first update of a new component
(all codes 0) fails. -/
theorem C171_first_update_violated {cfg : Config K} (hb : cfg.breakTies = true) (fuel : ℕ)
    (z : Cell ny nx → K) {s : LState ny nx} (hs : s.ids = none) (h0 : ∀ c, s.d8 c = 0)
    {codes : Cell ny nx → ℤ} (hg : updateFlowGrid cfg fuel z = some codes)
    (hne : ∃ c, codes c ≠ 0) : ¬ ∃ s', updateL cfg fuel z false s = some (.ok s') := by
  rw [C171_completes_iff]
  rintro ⟨s1, h1, hch⟩
  obtain ⟨c, hc⟩ := hne
  obtain ⟨hids, codes', hg', hcs⟩ := C170_first_update_partial hb hs h1
  rw [hg] at hg'
  cases hg'
  have hd : s1.d8 c ≠ 0 := by
    rcases hcs c with e | ⟨e, -⟩
    · rw [e]; exact hc
    · exact absurd e hc
  unfold updateFlowGridL at h1
  rw [hs] at h1
  simp only [Bool.false_and, Bool.false_eq_true, if_false, Option.map_eq_some_iff] at h1
  obtain ⟨d, -, he⟩ := h1
  injection he with he
  subst he
  simp only [decide_eq_false_iff_not, not_exists, not_and, not_not] at hch
  exact hd ((hch c (inIDs_all c)).trans (h0 c))

/-- After an update of a grid of two or more cells, whether it got through or failed after the
codes were computed, the component holds several IDs and every further update fails. -/
theorem C171_second_update_violated {cfg : Config K} (hb : cfg.breakTies = true) {fuel : ℕ}
    {z : Cell ny nx → K} {s s1 : LState ny nx} (hs : s.ids = none) (h2 : 2 ≤ ny * nx)
    (h : updateFlowGridL cfg fuel z false s = some (.ok s1)) (cfg' : Config K) (fuel' : ℕ)
    (z' : Cell ny nx → K) (g : Bool) :
    ∃ m, updateL cfg' fuel' z' g s1 = some (.error m) := by
  obtain ⟨hids, -⟩ := C170_first_update_partial hb hs h
  obtain ⟨m, hm⟩ := C170_several_cells_violated cfg' fuel' z' g s1 _ hids (by simp [allIDs]; omega)
  unfold updateL
  rw [hm]
  exact ⟨m, rfl⟩

/-- The parent IDs, when they can be computed: for the cells of the update those of the global
component, for the others unchanged. -/
theorem C171_parents {lr tb : Bool} {s s' : LState ny nx} (hch : s.changed = true)
    (h : updateParents lr tb s = .ok s') (c : Cell ny nx) :
    s'.parent c = if inIDs s.idList c then parentID lr tb s.d8 c else s.parent c := by
  unfold updateParents at h
  simp only [hch, Bool.true_eq_false, if_false] at h
  split_ifs at h with h1 h2 h3
  cases h
  dsimp only
  by_cases hin : inIDs s.idList c = true
  ·
    have hn2 : lr = true → (¬ (c.2.val = nx - 1 ∧ (s.d8 c = 1 ∨ s.d8 c = 2 ∨ s.d8 c = 4))) ∧
        ¬ (c.2.val = 0 ∧ (s.d8 c = 16 ∨ s.d8 c = 32 ∨ s.d8 c = 64)) := by
      intro hlr
      obtain ⟨a, b⟩ := not_or.1 (fun hx => h2 ⟨hlr, hx⟩)
      have a : ¬ _ := fun hx => a ⟨c, hin, hx⟩
      have b : ¬ _ := fun hx => b ⟨c, hin, hx⟩
      simp only [decide_eq_true_eq, List.mem_cons, List.not_mem_nil, or_false] at a b
      tauto
    have hn3 : tb = true → (¬ (c.1.val = 0 ∧ (s.d8 c = 1 ∨ s.d8 c = 64 ∨ s.d8 c = 128))) ∧
        ¬ (c.1.val = ny - 1 ∧ (s.d8 c = 4 ∨ s.d8 c = 8 ∨ s.d8 c = 16)) := by
      intro htb
      obtain ⟨a, b⟩ := not_or.1 (fun hx => h3 ⟨htb, hx⟩)
      have a : ¬ _ := fun hx => a ⟨c, hin, hx⟩
      have b : ¬ _ := fun hx => b ⟨c, hin, hx⟩
      simp only [decide_eq_true_eq, List.mem_cons, List.not_mem_nil, or_false] at a b
      tauto
    simp only [hin, if_true]
    unfold parentID
    simp only [decide_eq_true_eq]
    cases lr <;> cases tb
    · simp only [Bool.false_eq_true, if_false, true_and]
      split_ifs <;> rfl
    · have := hn3 rfl
      simp only [Bool.false_eq_true, if_false, true_and, if_true, Bool.true_eq_false, false_and, this.1, this.2]
      split_ifs <;> rfl
    · have := hn2 rfl
      simp only [Bool.false_eq_true, if_false, true_and, if_true, Bool.true_eq_false, false_and, this.1, this.2]
      split_ifs <;> rfl
    · have h2 := hn2 rfl
      have h3 := hn3 rfl
      simp only [if_true, Bool.true_eq_false, false_and, if_false, h2.1, h2.2, h3.1, h3.2]
  · simp only [hin, if_false, Bool.false_eq_true]

/-- The DEM after a sequence of changes, each of one cell. -/
def changedDEM (z : Cell ny nx → K) : List (Cell ny nx × K) → Cell ny nx → K
  | [] => z
  | (e, v) :: l => changedDEM (Function.update z e v) l

/-- The component told about each change in turn (`d8.IDs` set to the changed cell, then the codes
updated); `none` when a call fails. -/
def followChanges (cfg : Config K) (fuel : ℕ) (z : Cell ny nx → K) :
    List (Cell ny nx × K) → LState ny nx → Option (LState ny nx)
  | [], s => some s
  | (e, v) :: l, s =>
    match updateFlowGridL cfg fuel (Function.update z e v) false { s with ids := some [flatID e] } with
    | some (.ok s') => followChanges cfg fuel (Function.update z e v) l s'
    | _ => none

/-- The same over any history of single-cell changes: the codes stay those of the global
component. -/
theorem C170_history_partial {cfg : Config K} (hb : cfg.breakTies = true)
    (hl : cfg.linkFlats = false) (hlr : cfg.lrPeriodic = false) (htb : cfg.tbPeriodic = false)
    (fuel : ℕ) (changes : List (Cell ny nx × K)) :
    ∀ (z : Cell ny nx → K) (s : LState ny nx), updateFlowGrid cfg fuel z = some s.d8 →
    ∃ s', followChanges cfg fuel z changes s = some s' ∧
      updateFlowGrid cfg fuel (changedDEM z changes) = some s'.d8 := by
  induction changes with
  | nil => intro z s h; exact ⟨s, rfl, h⟩
  | cons p l ih =>
    obtain ⟨e, v⟩ := p
    intro z s h
    obtain ⟨s', h1, h2⟩ := C170_local_update_partial hb hl hlr htb fuel (z := z)
      (z' := Function.update z e v) e (fun c hc => Function.update_of_ne hc _ _)
      (s := { s with ids := some [flatID e] }) rfl h
    obtain ⟨s2, h3, h4⟩ := ih (Function.update z e v) s' h2
    refine ⟨s2, ?_, h4⟩
    simp only [followChanges, h1]
    exact h3

end

/-! ## Concrete cases -/

/-- A configuration: square cells, no linking of flats. -/
def demo (link lr : Bool) : Config ℚ := ⟨1, 1, 3/2, -9999, link, true, lr, false⟩

/-- A DEM from its rows. -/
def demOf {ny nx : ℕ} (l : List (List ℚ)) : Cell ny nx → ℚ := fun c => (l.getD c.1.val []).getD c.2.val 0

/-- The state of a new component. -/
def fresh (ny nx : ℕ) : LState ny nx := ⟨none, fun _ => 0, fun _ => 0, false⟩

/-- The state of a component whose codes are the global ones, told to update `i`. -/
def told {ny nx : ℕ} (cfg : Config ℚ) (z : Cell ny nx → ℚ) (i : ℤ) : LState ny nx :=
  ⟨some [i], (updateFlowGrid cfg 20 z).getD (fun _ => 0), fun _ => 0, false⟩

/-- The code of one cell after an update. -/
def codeAfter {ny nx : ℕ} (r : Option (Except String (LState ny nx))) (c : Cell ny nx) : Option ℤ :=
  match r with
  | some (.ok s) => some (s.d8 c)
  | _ => none

/-- The hypotheses of `C170_local_update_partial` and `C171_first_update_violated` hold for a 3 x 4
DEM where lowering one cell turns the flow of its neighbour. -/
example : codeAfter (updateFlowGridL (demo false false) 20
      (demOf [[9, 9, 9, 9], [9, 5, 4, 9], [9, 9, 9, 9]] : Cell 3 4 → ℚ) false (fresh 3 4)) (1, 1) = some 2 ∧
    codeAfter (updateFlowGridL (demo false false) 20
      (demOf [[9, 9, 9, 9], [1, 5, 4, 9], [9, 9, 9, 9]]) false
      (told (demo false false) (demOf [[9, 9, 9, 9], [9, 5, 4, 9], [9, 9, 9, 9]] : Cell 3 4 → ℚ) 4)) (1, 1)
      = some 32 ∧
    (updateFlowGrid (demo false false) 20
      (demOf [[9, 9, 9, 9], [1, 5, 4, 9], [9, 9, 9, 9]] : Cell 3 4 → ℚ)).map (· (1, 1)) = some 32 := by
  decide +kernel

/-- With left-right periodic boundaries the cell across the border is missed: it flows into the
lowered cell, but the local update leaves it without a direction. -/
theorem C170_periodic_violated :
    codeAfter (updateFlowGridL (demo false true) 20
      (demOf [[9, 9, 9, 9], [1, 5, 5, 5], [9, 9, 9, 9]]) false
      (told (demo false true) (demOf [[9, 9, 9, 9], [5, 5, 5, 5], [9, 9, 9, 9]] : Cell 3 4 → ℚ) 4)) (1, 3)
      = some 0 ∧
    (updateFlowGrid (demo false true) 20
      (demOf [[9, 9, 9, 9], [1, 5, 5, 5], [9, 9, 9, 9]] : Cell 3 4 → ℚ)).map (· (1, 3)) = some 2 := by
  decide +kernel

/-- With flat linking the rest of a flat is missed: the global component drains it into the lowered
cell, the local update leaves it without a direction. -/
theorem C170_flats_violated :
    codeAfter (updateFlowGridL (demo true false) 20
      (demOf [[9, 9, 9, 9, 9, 9], [9, 1, 5, 5, 5, 9], [9, 9, 9, 9, 9, 9]]) false
      (told (demo true false)
        (demOf [[9, 9, 9, 9, 9, 9], [9, 5, 5, 5, 5, 9], [9, 9, 9, 9, 9, 9]] : Cell 3 6 → ℚ) 7)) (1, 4)
      = some 0 ∧
    (updateFlowGrid (demo true false) 20
      (demOf [[9, 9, 9, 9, 9, 9], [9, 1, 5, 5, 5, 9], [9, 9, 9, 9, 9, 9]] : Cell 3 6 → ℚ)).map (· (1, 4))
      = some 32 := by
  decide +kernel

/-- With flat linking a pit keeps the number -300 as its code where the global component has 0. -/
theorem C170_pit_code_violated :
    codeAfter (updateFlowGridL (demo true false) 20
      (demOf [[9, 9, 9], [9, 1, 9], [9, 9, 9]] : Cell 3 3 → ℚ) false (fresh 3 3)) (1, 1) = some (-300) ∧
    (updateFlowGrid (demo true false) 20
      (demOf [[9, 9, 9], [9, 1, 9], [9, 9, 9]] : Cell 3 3 → ℚ)).map (· (1, 1)) = some 0 := by
  decide +kernel

/-- The first update of a new component on a DEM with one flowing cell fails, and so does it on a
DEM with one pit; on a DEM without any direction it gets through. -/
example : (updateL (demo false false) 20 (demOf [[9, 9, 9], [1, 5, 9], [9, 9, 9]] : Cell 3 3 → ℚ) false
      (fresh 3 3)).map (·.isOk) = some false ∧
    (updateL (demo true false) 20 (demOf [[9, 9, 9], [9, 5, 9], [9, 9, 9]] : Cell 3 3 → ℚ) false
      (fresh 3 3)).map (·.isOk) = some false ∧
    (updateL (demo false false) 20 (demOf [[9, 9, 9], [9, 5, 9], [9, 9, 9]] : Cell 3 3 → ℚ) false
      (fresh 3 3)).map (·.isOk) = some true := by
  decide +kernel

end D8Local
