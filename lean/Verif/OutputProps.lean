import Verif.OutputModel
import Mathlib.Tactic.Ring
import Mathlib.Tactic.Linarith
import Mathlib.Tactic.NormNum
import Mathlib.Tactic.Positivity
import Mathlib.Tactic.FieldSimp
import Mathlib.Data.Rat.Floor
import Mathlib.Data.Int.Cast.Lemmas
import Mathlib.Algebra.Order.Floor.Semiring

/-!
# C41, C62: output is saved at the save interval and reaches its file
-/

set_option autoImplicit false

namespace OutputSpec

/-- `t` is a multiple of the save interval `S`. -/
def IsMultiple {K : Type*} [Field K] (t S : K) : Prop := ∃ j : ℕ, t = j * S

/-- What a switch promises: its file and the quantity that goes into it. -/
structure Promise where
  switch : String
  file : String
  quantity : String

/-- The contents promised for a file: one row for every step `k < n` that is due,
in order, with the time in minutes and the quantity in that step. -/
def contents {K G : Type*} [Field K] (dt : K) (due : ℕ → Bool) (q : ℕ → G) (n : ℕ) :
    List (K × G) :=
  ((List.range n).filter due).map fun k : ℕ => ((k : K) * dt / 60, q k)

/-- Channel flow: switches of the CFG file with the grid file and the variable. -/
def channelsG : List Promise :=
  [⟨"SAVE_Q_GRIDS", "Q", "Q"⟩, ⟨"SAVE_U_GRIDS", "u", "u"⟩, ⟨"SAVE_D_GRIDS", "d", "d"⟩,
   ⟨"SAVE_F_GRIDS", "f", "f"⟩, ⟨"SAVE_DF_GRIDS", "d_flood", "d_flood"⟩]
def channelsP : List Promise :=
  [⟨"SAVE_Q_PIXELS", "Q", "Q"⟩, ⟨"SAVE_U_PIXELS", "u", "u"⟩, ⟨"SAVE_D_PIXELS", "d", "d"⟩,
   ⟨"SAVE_F_PIXELS", "f", "f"⟩, ⟨"SAVE_DF_PIXELS", "d_flood", "d_flood"⟩]
/-- Snow: melt rate, depth, snow water equivalent, cold content. -/
def snowG : List Promise :=
  [⟨"SAVE_MR_GRIDS", "mr", "SM"⟩, ⟨"SAVE_HS_GRIDS", "hs", "h_snow"⟩,
   ⟨"SAVE_SW_GRIDS", "sw", "h_swe"⟩, ⟨"SAVE_CC_GRIDS", "cc", "Ecc"⟩]
def snowP : List Promise :=
  [⟨"SAVE_MR_PIXELS", "mr", "SM"⟩, ⟨"SAVE_HS_PIXELS", "hs", "h_snow"⟩,
   ⟨"SAVE_SW_PIXELS", "sw", "h_swe"⟩, ⟨"SAVE_CC_PIXELS", "cc", "Ecc"⟩]
/-- Meteorology. -/
def metG : List Promise :=
  [⟨"SAVE_EA_GRIDS", "ea", "e_air"⟩, ⟨"SAVE_ES_GRIDS", "es", "e_surf"⟩,
   ⟨"SAVE_QSW_GRIDS", "Qsw", "Qn_SW"⟩, ⟨"SAVE_QLW_GRIDS", "Qlw", "Qn_LW"⟩,
   ⟨"SAVE_EMA_GRIDS", "ema", "em_air"⟩, ⟨"SAVE_TSURF_GRIDS", "tsurf", "T_surf"⟩,
   ⟨"SAVE_ALB_GRIDS", "alb", "albedo"⟩]
def metP : List Promise :=
  [⟨"SAVE_EA_PIXELS", "ea", "e_air"⟩, ⟨"SAVE_ES_PIXELS", "es", "e_surf"⟩,
   ⟨"SAVE_QSW_PIXELS", "Qsw", "Qn_SW"⟩, ⟨"SAVE_QLW_PIXELS", "Qlw", "Qn_LW"⟩,
   ⟨"SAVE_EMA_PIXELS", "ema", "em_air"⟩, ⟨"SAVE_TSURF_PIXELS", "tsurf", "T_surf"⟩,
   ⟨"SAVE_ALB_PIXELS", "alb", "albedo"⟩]
/-- Groundwater without the frozen depth (see `C62_frozen_depth_violated`). -/
def satzoneG : List Promise :=
  [⟨"SAVE_GW_GRIDS", "GW", "GW"⟩, ⟨"SAVE_HT_GRIDS", "h_table", "h_table"⟩,
   ⟨"SAVE_DT_GRIDS", "d_thaw", "d_thaw"⟩]
def satzoneP : List Promise :=
  [⟨"SAVE_GW_PIXELS", "GW", "GW"⟩, ⟨"SAVE_HT_PIXELS", "h_table", "h_table"⟩,
   ⟨"SAVE_DT_PIXELS", "d_thaw", "d_thaw"⟩]

end OutputSpec

namespace Output

open OutputSpec

variable {K : Type*} [Field K] [LinearOrder K] [IsStrictOrderedRing K] [FloorRing K]
variable {G : Type*}

/-! ## The schedule -/

theorem pyInt_natCast (s : ℕ) : pyInt ((s : ℕ) : K) = s := by
  unfold pyInt
  rw [if_pos (Nat.cast_nonneg s)]
  simp

/-- The test of `write_output_files` for a whole number of seconds `s > 0`. -/
theorem isDue_nat (t : K) (ht : 0 ≤ t) (s : ℕ) (hs : 0 < s) :
    isDue t (s : K) = .ok (decide ((s : ℤ) ∣ ⌊t⌋)) := by
  have h0 : ((s : ℕ) : ℤ) ≠ 0 := by omega
  unfold isDue pyMod
  rw [pyInt_natCast, if_neg h0]
  simp only [pyInt, if_pos ht]
  congr 1
  rw [Int.fmod_eq_emod_of_nonneg _ (by omega)]
  exact decide_eq_decide.mpr (Int.dvd_iff_emod_eq_zero).symm

/-- **C41 (test).**  With a save interval of `s` whole seconds, a step at time `t`
is saved exactly if it lies in the second that begins with a multiple of `s`. -/
theorem C41_due_iff (t : K) (ht : 0 ≤ t) (s : ℕ) (hs : 0 < s) :
    isDue t (s : K) = .ok true ↔ ∃ j : ℕ, (j : K) * s ≤ t ∧ t < (j : K) * s + 1 := by
  rw [isDue_nat t ht s hs]
  simp only [Except.ok.injEq, decide_eq_true_eq]
  constructor
  · rintro ⟨j, hj⟩
    have hf : 0 ≤ ⌊t⌋ := Int.floor_nonneg.mpr ht
    have hj0 : 0 ≤ j := by
      by_contra h
      have : (s : ℤ) * j < 0 := mul_neg_of_pos_of_neg (by omega) (by omega)
      omega
    obtain ⟨m, rfl⟩ := Int.eq_ofNat_of_zero_le hj0
    refine ⟨m, ?_, ?_⟩
    · have := Int.floor_le t
      rw [hj] at this
      push_cast at this
      linarith [mul_comm (m : K) s]
    · have := Int.lt_floor_add_one t
      rw [hj] at this
      push_cast at this
      linarith [mul_comm (m : K) s]
  · rintro ⟨j, h1, h2⟩
    refine ⟨(j : ℤ), ?_⟩
    rw [Int.floor_eq_iff]
    push_cast
    constructor
    · linarith [mul_comm (j : K) s]
    · linarith [mul_comm (j : K) s]

/-- Steps of a whole number of seconds. -/
theorem isDue_whole (a s : ℕ) (hs : 0 < s) :
    isDue ((a : ℕ) : K) (s : K) = .ok (decide (s ∣ a)) := by
  rw [isDue_nat _ (Nat.cast_nonneg a) s hs]
  congr 1
  apply decide_eq_decide.mpr
  rw [Int.floor_natCast]
  exact Int.natCast_dvd_natCast

/-! ## Files -/

/-- One row appended to a file if it is there and open. -/
def pt (t : K) (g : G) (o : Option (File K G)) : Option (File K G) :=
  o.map fun f => if f.isOpen then { f with rows := f.rows ++ [(t, g)] } else f

omit [LinearOrder K] [IsStrictOrderedRing K] [FloorRing K] [Field K] in
theorem addGrid_apply (m : String → Option (File K G)) (t : K) (g : G) (v w : String) :
    addGrid m t g v w = if w = v then pt t g (m v) else m w := by
  unfold addGrid pt
  cases h : m v with
  | none => by_cases hw : w = v <;> simp [hw, h]
  | some f =>
    by_cases hw : w = v
    · subst hw
      cases hf : f.isOpen <;> simp [setAt, h, hf]
    · cases hf : f.isOpen <;> simp [setAt, hw, hf]

/-- The fold of `save_grids` over a list of rows. -/
def saveRows (on : String → Bool) (t : K) (val : String → G)
    (rows : List (String × String × String)) (m : String → Option (File K G)) :
    String → Option (File K G) :=
  rows.foldl (fun m r => if on r.1 then addGrid m t (val r.2.1) r.2.2 else m) m

omit [LinearOrder K] [IsStrictOrderedRing K] [FloorRing K] [Field K] in
theorem saveRows_not_mem (on : String → Bool) (t : K) (val : String → G)
    (rows : List (String × String × String)) (m : String → Option (File K G)) (v : String)
    (h : v ∉ rows.map (fun r => r.2.2)) : saveRows on t val rows m v = m v := by
  induction rows generalizing m with
  | nil => rfl
  | cons r rs ih =>
    simp only [List.map_cons, List.mem_cons, not_or] at h
    unfold saveRows
    rw [List.foldl_cons]
    have := ih (if on r.1 then addGrid m t (val r.2.1) r.2.2 else m) h.2
    unfold saveRows at this
    rw [this]
    split
    · rw [addGrid_apply, if_neg h.1]
    · rfl

omit [LinearOrder K] [IsStrictOrderedRing K] [FloorRing K] [Field K] in
theorem saveRows_mem (on : String → Bool) (t : K) (val : String → G)
    (rows : List (String × String × String)) (m : String → Option (File K G))
    (hn : (rows.map (fun r => r.2.2)).Nodup) (f q v : String) (h : (f, q, v) ∈ rows) :
    saveRows on t val rows m v = if on f then pt t (val q) (m v) else m v := by
  induction rows generalizing m with
  | nil => cases h
  | cons r rs ih =>
    simp only [List.map_cons, List.nodup_cons] at hn
    unfold saveRows
    rw [List.foldl_cons]
    rcases List.mem_cons.mp h with h | h
    · subst h
      have := saveRows_not_mem on t val rs
        (if on f then addGrid m t (val q) v else m) v hn.1
      unfold saveRows at this
      rw [this]
      split
      · rw [addGrid_apply, if_pos rfl]
      · rfl
    · have := ih (if on r.1 then addGrid m t (val r.2.1) r.2.2 else m) hn.2 h
      unfold saveRows at this
      rw [this]
      have hv : v ≠ r.2.2 := by
        rintro rfl
        exact hn.1 (List.mem_map.mpr ⟨_, h, rfl⟩)
      have : (if on r.1 then addGrid m t (val r.2.1) r.2.2 else m) v = m v := by
        split
        · rw [addGrid_apply, if_neg hv]
        · rfl
      rw [this]

omit [LinearOrder K] [IsStrictOrderedRing K] [FloorRing K] [Field K] in
theorem addGrid_open (m : String → Option (File K G)) (t : K) (g : G) (v w : String)
    (h : ∃ rows, m w = some ⟨rows, true⟩) : ∃ rows, addGrid m t g v w = some ⟨rows, true⟩ := by
  obtain ⟨rows, h⟩ := h
  rw [addGrid_apply]
  by_cases hw : w = v
  · subst hw
    exact ⟨rows ++ [(t, g)], by simp [pt, h]⟩
  · exact ⟨rows, by simp [hw, h]⟩

omit [LinearOrder K] [IsStrictOrderedRing K] [FloorRing K] [Field K] in
theorem saveRows_open (on : String → Bool) (t : K) (val : String → G)
    (rows : List (String × String × String)) (m : String → Option (File K G)) (w : String)
    (h : ∃ r, m w = some ⟨r, true⟩) : ∃ r, saveRows on t val rows m w = some ⟨r, true⟩ := by
  induction rows generalizing m with
  | nil => exact h
  | cons r rs ih =>
    unfold saveRows
    rw [List.foldl_cons]
    apply ih
    split
    · exact addGrid_open m t _ _ w h
    · exact h

omit [LinearOrder K] [IsStrictOrderedRing K] [FloorRing K] [Field K] in
theorem saveRows_none (on : String → Bool) (t : K) (val : String → G)
    (rows : List (String × String × String)) (m : String → Option (File K G)) (w : String)
    (h : m w = none) : saveRows on t val rows m w = none := by
  induction rows generalizing m with
  | nil => exact h
  | cons r rs ih =>
    unfold saveRows
    rw [List.foldl_cons]
    apply ih
    split
    · rw [addGrid_apply]
      split
      · rename_i hw
        rw [← hw, h]
        rfl
      · exact h
    · exact h

omit [LinearOrder K] [IsStrictOrderedRing K] [FloorRing K] [Field K] in
/-- With its files open, saving time series does what saving grids does. -/
theorem savePixels_ok (tab : Table) (on : String → Bool) (t : K) (val : String → G)
    (m : String → Option (File K G))
    (h : ∀ r ∈ tab.saveTs, on r.1 = true → ∃ rows, m r.2.2 = some ⟨rows, true⟩) :
    savePixels tab on t val m = .ok (saveRows on t val tab.saveTs m) := by
  unfold savePixels saveRows
  generalize tab.saveTs = rows at h
  induction rows generalizing m with
  | nil => rfl
  | cons r rs ih =>
    rw [List.foldlM_cons, List.foldl_cons]
    by_cases hr : on r.1 = true
    · obtain ⟨rows, hm⟩ := h r (by simp) hr
      have h1 : addValues m t (val r.2.1) r.2.2 = .ok (addGrid m t (val r.2.1) r.2.2) := by
        unfold addValues addGrid
        rw [hm]
        simp
      simp only [hr, if_true, h1]
      show List.foldlM _ _ rs = _
      apply ih
      intro r' hr' ho
      exact addGrid_open m t _ _ _ (h r' (by simp [hr']) ho)
    · simp only [hr]
      show List.foldlM _ _ rs = _
      apply ih
      intro r' hr' ho
      exact h r' (by simp [hr']) ho

omit [LinearOrder K] [IsStrictOrderedRing K] [FloorRing K] [Field K] in
theorem open_mem (on : String → Bool) (l : List (String × String)) (m : String → Option (File K G))
    (f v : String) (h : (f, v) ∈ l) (ho : on f = true) :
    l.foldl (fun m r => if on r.1 then openNew m r.2 else m) m v = some ⟨[], true⟩ := by
  have key : ∀ (l : List (String × String)) (m : String → Option (File K G)),
      m v = some ⟨[], true⟩ →
      l.foldl (fun m r => if on r.1 then openNew m r.2 else m) m v = some ⟨[], true⟩ := by
    intro l
    induction l with
    | nil => intro m hm; exact hm
    | cons r rs ih =>
      intro m hm
      rw [List.foldl_cons]
      apply ih
      split
      · unfold openNew setAt
        split
        · rfl
        · exact hm
      · exact hm
  induction l generalizing m with
  | nil => cases h
  | cons r rs ih =>
    rw [List.foldl_cons]
    rcases List.mem_cons.mp h with h | h
    · subst h
      apply key
      simp [ho, openNew, setAt]
    · exact ih _ h

omit [LinearOrder K] [IsStrictOrderedRing K] [FloorRing K] [Field K] in
theorem open_not_mem (on : String → Bool) (l : List (String × String))
    (m : String → Option (File K G)) (v : String)
    (h : ∀ f, (f, v) ∈ l → on f = false) :
    l.foldl (fun m r => if on r.1 then openNew m r.2 else m) m v = m v := by
  induction l generalizing m with
  | nil => rfl
  | cons r rs ih =>
    rw [List.foldl_cons, ih]
    · split
      · rename_i hr
        unfold openNew setAt
        rw [if_neg]
        rintro rfl
        have := h r.1 (by simp)
        simp [hr] at this
      · rfl
    · intro f hf
      exact h f (by simp [hf])

/-- The variable names of the grid files closed by a list of statements. -/
def gsNames (ops : List CloseOp) : List String :=
  ops.filterMap fun
    | .gs _ v => some v
    | .ts _ _ => none

/-- A file after closing. -/
def closed (o : Option (File K G)) : Option (File K G) := o.map fun f => { f with isOpen := false }

omit [LinearOrder K] [IsStrictOrderedRing K] [FloorRing K] [Field K] in
theorem closeTs_apply (m : String → Option (File K G)) (v w : String) :
    closeTs m v w = if w = v then closed (m v) else m w := by
  unfold closeTs closed
  cases h : m v with
  | none => by_cases hw : w = v <;> simp [hw, h]
  | some f =>
    obtain ⟨r, o⟩ := f
    by_cases hw : w = v
    · subst hw
      cases o <;> simp [setAt, h]
    · cases o <;> simp [setAt, hw]

omit [LinearOrder K] [IsStrictOrderedRing K] [FloorRing K] [Field K] in
theorem close_ok (on : String → Bool) (ops : List CloseOp) (u : Units K G)
    (hn : (gsNames ops).Nodup)
    (h : ∀ f v, CloseOp.gs f v ∈ ops → on f = true → ∃ rows, u.gs v = some ⟨rows, true⟩) :
    ∃ u', ops.foldlM (closeOne on) u = .ok u' ∧
      (∀ f v, CloseOp.gs f v ∈ ops → on f = true → u'.gs v = closed (u.gs v)) ∧
      (∀ v, (∀ f, CloseOp.gs f v ∈ ops → on f = false) → u'.gs v = u.gs v) ∧
      (∀ f v, CloseOp.ts f v ∈ ops → on f = true → u'.ts v = closed (u.ts v)) ∧
      (∀ v, (∀ f, CloseOp.ts f v ∈ ops → on f = false) → u'.ts v = u.ts v) ∧
      (∀ v, u'.ts v = u.ts v ∨ u'.ts v = closed (u.ts v)) := by
  induction ops generalizing u with
  | nil => exact ⟨u, rfl, by simp, by simp, by simp, by simp, by simp⟩
  | cons op ops ih =>
    rw [List.foldlM_cons]
    cases op with
    | gs f0 v0 =>
      have hn' : v0 ∉ gsNames ops ∧ (gsNames ops).Nodup := by
        simpa [gsNames] using hn
      have hnot : ∀ f, CloseOp.gs f v0 ∉ ops := by
        intro f hf
        exact hn'.1 (List.mem_filterMap.mpr ⟨_, hf, rfl⟩)
      by_cases ho : on f0 = true
      · obtain ⟨rows, hr⟩ := h f0 v0 (by simp) ho
        have h1 : closeOne on u (.gs f0 v0) =
            .ok { u with gs := setAt u.gs v0 ⟨rows, false⟩ } := by
          simp [closeOne, ho, closeGs, hr]
        rw [h1]
        obtain ⟨u', e, a, b, c, d, k⟩ := ih { u with gs := setAt u.gs v0 ⟨rows, false⟩ } hn'.2 (by
          intro f v hf hof
          have hne : v ≠ v0 := fun e => hnot f (e ▸ hf)
          obtain ⟨r, hr'⟩ := h f v (by simp [hf]) hof
          exact ⟨r, by simp [setAt, hne, hr']⟩)
        refine ⟨u', e, ?_, ?_, ?_, ?_, k⟩
        · intro f v hf hof
          rcases List.mem_cons.mp hf with hf | hf
          · injection hf with hf1 hf2
            subst hf1 hf2
            rw [b v (fun f hf => absurd hf (hnot f))]
            simp [setAt, closed, hr]
          · have hne : v ≠ v0 := fun e => hnot f (e ▸ hf)
            rw [a f v hf hof]
            simp [setAt, hne]
        · intro v hv
          have hne : v ≠ v0 := by
            rintro rfl
            have := hv f0 (by simp)
            simp [ho] at this
          rw [b v (fun f hf => hv f (by simp [hf]))]
          simp [setAt, hne]
        · intro f v hf hof
          exact c f v (by simpa using hf) hof
        · intro v hv
          exact d v (fun f hf => hv f (by simp [hf]))
      · have ho' : on f0 = false := by simpa using ho
        have h1 : closeOne on u (.gs f0 v0) = .ok u := by simp [closeOne, ho']
        rw [h1]
        obtain ⟨u', e, a, b, c, d, k⟩ := ih u hn'.2 (fun f v hf hof => h f v (by simp [hf]) hof)
        refine ⟨u', e, ?_, ?_, ?_, ?_, k⟩
        · intro f v hf hof
          rcases List.mem_cons.mp hf with hf | hf
          · injection hf with hf1 hf2
            subst hf1
            simp [ho'] at hof
          · exact a f v hf hof
        · intro v hv
          exact b v (fun f hf => hv f (by simp [hf]))
        · intro f v hf hof
          exact c f v (by simpa using hf) hof
        · intro v hv
          exact d v (fun f hf => hv f (by simp [hf]))
    | ts f0 v0 =>
      have hn' : (gsNames ops).Nodup := by simpa [gsNames] using hn
      by_cases ho : on f0 = true
      · have h1 : closeOne on u (.ts f0 v0) = .ok { u with ts := closeTs u.ts v0 } := by
          simp [closeOne, ho]
        rw [h1]
        obtain ⟨u', e, a, b, c, d, k⟩ := ih { u with ts := closeTs u.ts v0 } hn'
          (fun f v hf hof => h f v (by simp [hf]) hof)
        have hcc : ∀ v, closed (closeTs u.ts v0 v) = closed (u.ts v) := by
          intro v
          rw [closeTs_apply]
          split
          · rename_i hv
            subst hv
            cases u.ts v <;> simp [closed]
          · rfl
        refine ⟨u', e, ?_, ?_, ?_, ?_, ?_⟩
        · intro f v hf hof
          exact a f v (by simpa using hf) hof
        · intro v hv
          exact b v (fun f hf => hv f (by simp [hf]))
        · intro f v hf hof
          rcases List.mem_cons.mp hf with hf | hf
          · injection hf with hf1 hf2
            subst hf1 hf2
            rcases k v with k | k
            · rw [k]
              simp [closeTs_apply]
            · rw [k]
              exact hcc v
          · rw [c f v hf hof]
            exact hcc v
        · intro v hv
          have hne : v ≠ v0 := by
            rintro rfl
            have := hv f0 (by simp)
            simp [ho] at this
          rw [d v (fun f hf => hv f (by simp [hf]))]
          simp [closeTs_apply, hne]
        · intro v
          rcases k v with k | k
          · rw [k]
            simp only [closeTs_apply]
            split
            · rename_i hv
              subst hv
              exact Or.inr rfl
            · exact Or.inl rfl
          · rw [k]
            exact Or.inr (hcc v)
      · have ho' : on f0 = false := by simpa using ho
        have h1 : closeOne on u (.ts f0 v0) = .ok u := by simp [closeOne, ho']
        rw [h1]
        obtain ⟨u', e, a, b, c, d, k⟩ := ih u hn' (fun f v hf hof => h f v (by simp [hf]) hof)
        refine ⟨u', e, ?_, ?_, ?_, ?_, k⟩
        · intro f v hf hof
          exact a f v (by simpa using hf) hof
        · intro v hv
          exact b v (fun f hf => hv f (by simp [hf]))
        · intro f v hf hof
          rcases List.mem_cons.mp hf with hf | hf
          · injection hf with hf1 hf2
            subst hf1
            simp [ho'] at hof
          · exact c f v hf hof
        · intro v hv
          exact d v (fun f hf => hv f (by simp [hf]))

/-! ## A run with a given schedule -/

/-- The files of one kind after `n` steps. -/
structure Inv (opens : List (String × String)) (saves : List (String × String × String))
    (on : String → Bool) (dt : K) (due : ℕ → Bool) (val : ℕ → String → G) (n : ℕ)
    (m : String → Option (File K G)) : Prop where
  isOpen : ∀ f v, (f, v) ∈ opens → on f = true → ∃ rows, m v = some ⟨rows, true⟩
  rows : ∀ f q v, (f, q, v) ∈ saves → on f = true → (f, v) ∈ opens →
    m v = some ⟨contents dt due (fun k => val k q) n, true⟩
  unsaved : ∀ f v, (f, v) ∈ opens → on f = true → v ∉ saves.map (fun r => r.2.2) →
    m v = some ⟨[], true⟩
  absent : ∀ v, (∀ f, (f, v) ∈ opens → on f = false) → m v = none

omit [LinearOrder K] [IsStrictOrderedRing K] [FloorRing K] in
theorem contents_succ (dt : K) (due : ℕ → Bool) (q : ℕ → G) (n : ℕ) :
    contents dt due q (n + 1) =
      contents dt due q n ++ (if due n then [((n : K) * dt / 60, q n)] else []) := by
  unfold contents
  rw [List.range_succ, List.filter_append, List.map_append]
  congr 1
  cases h : due n <;> simp [h]

omit [LinearOrder K] [IsStrictOrderedRing K] [FloorRing K] in
theorem Inv.init (opens : List (String × String)) (saves : List (String × String × String))
    (on : String → Bool) (dt : K) (due : ℕ → Bool) (val : ℕ → String → G) :
    Inv opens saves on dt due val 0
      (opens.foldl (fun m r => if on r.1 then openNew m r.2 else m)
        (fun _ => none : String → Option (File K G))) := by
  constructor
  · intro f v h ho
    exact ⟨[], open_mem on opens _ f v h ho⟩
  · intro f q v _ ho h
    rw [open_mem on opens _ f v h ho]
    simp [contents]
  · intro f v h ho _
    exact open_mem on opens _ f v h ho
  · intro v hv
    exact open_not_mem on opens _ v hv

omit [LinearOrder K] [IsStrictOrderedRing K] [FloorRing K] in
theorem Inv.step {opens : List (String × String)} {saves : List (String × String × String)}
    {on : String → Bool} {dt : K} {due : ℕ → Bool} {val : ℕ → String → G} {n : ℕ}
    {m : String → Option (File K G)} (hn : (saves.map (fun r => r.2.2)).Nodup)
    (h : Inv opens saves on dt due val n m) (t : K) (ht : t = (n : K) * dt / 60) :
    Inv opens saves on dt due val (n + 1)
      (if due n then saveRows on t (val n) saves m else m) := by
  by_cases hd : due n = true
  · rw [if_pos hd]
    constructor
    · intro f v hv ho
      exact saveRows_open on t _ _ _ _ (h.isOpen f v hv ho)
    · intro f q v hs ho hv
      rw [saveRows_mem on t _ _ _ hn f q v hs, if_pos ho, h.rows f q v hs ho hv, contents_succ,
        if_pos hd, ht]
      simp [pt]
    · intro f v hv ho hns
      rw [saveRows_not_mem on t _ _ _ _ hns]
      exact h.unsaved f v hv ho hns
    · intro v hv
      exact saveRows_none on t _ _ _ _ (h.absent v hv)
  · rw [if_neg hd]
    constructor
    · exact h.isOpen
    · intro f q v hs ho hv
      rw [h.rows f q v hs ho hv, contents_succ, if_neg hd, List.append_nil]
    · exact h.unsaved
    · exact h.absent

omit [IsStrictOrderedRing K] in
/-- The state after `n` updates, if the schedule is known and every time series
that is saved has been opened. -/
theorem updates_inv (tab : Table) (cfg : Config K) (val : ℕ → String → G)
    (dueG dueP : ℕ → Bool)
    (hG : ∀ k : ℕ, isDue ((k : K) * (cfg.dt * cfg.factor))
      (intervalOf tab.clamps cfg.saveGridDt cfg.dt) = .ok (dueG k))
    (hP : ∀ k : ℕ, isDue ((k : K) * (cfg.dt * cfg.factor))
      (intervalOf tab.clamps cfg.savePixelsDt cfg.dt) = .ok (dueP k))
    (hnG : (tab.saveGs.map (fun r => r.2.2)).Nodup)
    (hnP : (tab.saveTs.map (fun r => r.2.2)).Nodup)
    (hts : ∀ f q v, (f, q, v) ∈ tab.saveTs → cfg.on f = true → (f, v) ∈ tab.openTs) (n : ℕ) :
    ∃ c u, updates tab cfg val n = .ok (c, u) ∧ c.time = n * cfg.dt ∧
      c.timeSec = n * (cfg.dt * cfg.factor) ∧
      Inv tab.openGs tab.saveGs cfg.on (cfg.dt * cfg.factor) dueG val n u.gs ∧
      Inv tab.openTs tab.saveTs cfg.on (cfg.dt * cfg.factor) dueP val n u.ts := by
  induction n with
  | zero =>
    refine ⟨_, _, rfl, by simp, by simp, ?_, ?_⟩
    · exact Inv.init _ _ _ _ _ _
    · exact Inv.init _ _ _ _ _ _
  | succ n ih =>
    obtain ⟨c, u, e, ht, hs, iG, iP⟩ := ih
    have hw : writeOutput tab cfg c (val n) u = .ok
        { gs := if dueG n then saveRows cfg.on (c.timeSec / 60) (val n) tab.saveGs u.gs else u.gs
          ts := if dueP n then saveRows cfg.on (c.timeSec / 60) (val n) tab.saveTs u.ts
            else u.ts } := by
      have hpx : savePixels tab cfg.on (c.timeSec / 60) (val n) u.ts =
          .ok (saveRows cfg.on (c.timeSec / 60) (val n) tab.saveTs u.ts) := by
        apply savePixels_ok
        rintro ⟨f, q, v⟩ hr ho
        exact iP.isOpen f v (hts f q v hr ho) ho
      unfold writeOutput
      rw [hs, hG, hP]
      rw [hs] at hpx
      cases hg : dueG n <;> cases hp : dueP n <;>
        simp only [Bool.false_eq_true, if_true, if_false, hpx] <;> rfl
    refine ⟨updateTime cfg.dt cfg.factor c, _, by simp only [updates, e, hw]; rfl, ?_, ?_, ?_, ?_⟩
    · simp only [updateTime, ht]
      push_cast
      ring
    · simp only [updateTime, ht]
      push_cast
      ring
    · exact Inv.step hnG iG _ (by rw [hs])
    · exact Inv.step hnP iP _ (by rw [hs])

omit [IsStrictOrderedRing K] in
/-- A whole run, if the schedule is known and every file that is saved to or closed
has been opened. -/
theorem run_files (tab : Table) (cfg : Config K) (val : ℕ → String → G)
    (dueG dueP : ℕ → Bool)
    (hG : ∀ k : ℕ, isDue ((k : K) * (cfg.dt * cfg.factor))
      (intervalOf tab.clamps cfg.saveGridDt cfg.dt) = .ok (dueG k))
    (hP : ∀ k : ℕ, isDue ((k : K) * (cfg.dt * cfg.factor))
      (intervalOf tab.clamps cfg.savePixelsDt cfg.dt) = .ok (dueP k))
    (hnG : (tab.saveGs.map (fun r => r.2.2)).Nodup)
    (hnP : (tab.saveTs.map (fun r => r.2.2)).Nodup)
    (hnC : (gsNames tab.close).Nodup)
    (hts : ∀ f q v, (f, q, v) ∈ tab.saveTs → cfg.on f = true → (f, v) ∈ tab.openTs)
    (hcl : ∀ f v, CloseOp.gs f v ∈ tab.close → cfg.on f = true → (f, v) ∈ tab.openGs) (n : ℕ) :
    ∃ u, run tab cfg val n = .ok u ∧
      (∀ f q v, (f, q, v) ∈ tab.saveGs → cfg.on f = true → (f, v) ∈ tab.openGs →
        CloseOp.gs f v ∈ tab.close →
        u.gs v = some ⟨contents (cfg.dt * cfg.factor) dueG (fun k => val k q) n, false⟩) ∧
      (∀ f q v, (f, q, v) ∈ tab.saveTs → cfg.on f = true → (f, v) ∈ tab.openTs →
        CloseOp.ts f v ∈ tab.close →
        u.ts v = some ⟨contents (cfg.dt * cfg.factor) dueP (fun k => val k q) n, false⟩) ∧
      (∀ f v, (f, v) ∈ tab.openGs → cfg.on f = true → v ∉ tab.saveGs.map (fun r => r.2.2) →
        CloseOp.gs f v ∈ tab.close → u.gs v = some ⟨[], false⟩) ∧
      (∀ f q v, (f, q, v) ∈ tab.saveGs → cfg.on f = true → (f, v) ∈ tab.openGs →
        (∀ f', CloseOp.gs f' v ∈ tab.close → cfg.on f' = false) →
        u.gs v = some ⟨contents (cfg.dt * cfg.factor) dueG (fun k => val k q) n, true⟩) ∧
      (∀ f q v, (f, q, v) ∈ tab.saveTs → cfg.on f = true → (f, v) ∈ tab.openTs →
        (∀ f', CloseOp.ts f' v ∈ tab.close → cfg.on f' = false) →
        u.ts v = some ⟨contents (cfg.dt * cfg.factor) dueP (fun k => val k q) n, true⟩) := by
  obtain ⟨c, u, e, -, -, iG, iP⟩ := updates_inv tab cfg val dueG dueP hG hP hnG hnP hts n
  obtain ⟨u', e', a, b, c', d', -⟩ := close_ok cfg.on tab.close u hnC
    (fun f v h ho => iG.isOpen f v (hcl f v h ho) ho)
  refine ⟨u', ?_, ?_, ?_, ?_, ?_, ?_⟩
  · simp only [run, e, closeFiles, e']
  · intro f q v hs ho hv hc
    rw [a f v hc ho, iG.rows f q v hs ho hv]
    rfl
  · intro f q v hs ho hv hc
    rw [c' f v hc ho, iP.rows f q v hs ho hv]
    rfl
  · intro f v hv ho hns hc
    rw [a f v hc ho, iG.unsaved f v hv ho hns]
    rfl
  · intro f q v hs ho hv hc
    rw [b v hc, iG.rows f q v hs ho hv]
  · intro f q v hs ho hv hc
    rw [d' v hc, iP.rows f q v hs ho hv]

/-! ## C41 -/

/-- A configuration with whole numbers: time step `d` in units of `w` seconds, save
intervals of `sg` and `sp` seconds. -/
def wholeCfg (d w sg sp : ℕ) (on : String → Bool) : Config K where
  dt := d
  factor := w
  saveGridDt := (sg : K)
  savePixelsDt := (sp : K)
  on := on

theorem isDue_clamped (d w s : ℕ) (hd : 0 < d) (k : ℕ) :
    isDue ((k : K) * ((d : K) * w)) (intervalOf true (s : K) d) =
      .ok (decide (max s d ∣ k * (d * w))) := by
  have h := isDue_whole (K := K) (k * (d * w)) (max s d) (lt_of_lt_of_le hd (le_max_right _ _))
  rw [← h]
  unfold intervalOf clampSaveDt
  push_cast
  rfl

theorem isDue_given (d w s : ℕ) (hs : 0 < s) (k : ℕ) :
    isDue ((k : K) * ((d : K) * w)) (intervalOf false (s : K) d) =
      .ok (decide (s ∣ k * (d * w))) := by
  have h := isDue_whole (K := K) (k * (d * w)) s hs
  rw [← h]
  simp [intervalOf]

theorem dvd_iff_isMultiple (d s k : ℕ) :
    s ∣ k * d ↔ IsMultiple ((k : K) * d) (s : K) := by
  unfold IsMultiple
  constructor
  · rintro ⟨j, hj⟩
    refine ⟨j, ?_⟩
    have : ((k * d : ℕ) : K) = ((s * j : ℕ) : K) := by rw [hj]
    push_cast at this
    rw [this]
    ring
  · rintro ⟨j, hj⟩
    refine ⟨j, ?_⟩
    have : ((k * d : ℕ) : K) = ((s * j : ℕ) : K) := by
      push_cast
      rw [hj]
      ring
    exact_mod_cast this

/-- **C41 (whole seconds; channels, meteorology, infiltration).**  With a time step of `d`
and a save interval of `s` whole seconds, step `k` is saved exactly if its time `k d` is a
multiple of the save interval (which is raised to the time step if it is smaller). -/
theorem C41_whole_partial (tab : Table) (ht : tab ∈ [channels, met, infil]) (d s : ℕ)
    (hd : 0 < d) (k : ℕ) :
    isDue ((k : K) * d) (intervalOf tab.clamps (s : K) d) = .ok true ↔
      IsMultiple ((k : K) * d) (max (s : K) d) := by
  have hc : tab.clamps = true := by
    simp only [List.mem_cons, List.not_mem_nil, or_false] at ht
    rcases ht with rfl | rfl | rfl <;> rfl
  have h := isDue_clamped (K := K) d 1 s hd k
  simp only [Nat.cast_one, mul_one] at h
  rw [hc, h]
  simp only [Except.ok.injEq, decide_eq_true_eq]
  rw [dvd_iff_isMultiple (K := K)]
  push_cast
  rfl

/-- **C41 (whole seconds; snow, groundwater, evaporation, ice, glacier).**  Here the save
interval is used as given: step `k` is saved exactly if its time is a multiple of it, even
if it is shorter than the time step. -/
theorem C41_whole_given_partial (tab : Table) (ht : tab ∈ [snow, satzone, evap, ice, glacier])
    (d s : ℕ) (hs : 0 < s) (k : ℕ) :
    isDue ((k : K) * d) (intervalOf tab.clamps (s : K) d) = .ok true ↔
      IsMultiple ((k : K) * d) (s : K) := by
  have hc : tab.clamps = false := by
    simp only [List.mem_cons, List.not_mem_nil, or_false] at ht
    rcases ht with rfl | rfl | rfl | rfl | rfl <;> rfl
  have h := isDue_given (K := K) d 1 s hs k
  simp only [Nat.cast_one, mul_one] at h
  rw [hc, h]
  simp only [Except.ok.injEq, decide_eq_true_eq]
  exact dvd_iff_isMultiple d s k

/-- Steps of 60 s with a save interval of 50 s: channels save every step, snow every fifth. -/
example : (∀ k : Fin 6, isDue ((k.val : ℚ) * ((60 : ℕ) : ℚ))
      (intervalOf channels.clamps ((50 : ℕ) : ℚ) (60 : ℕ)) = .ok true) ∧
    ∀ k : Fin 6, isDue ((k.val : ℚ) * ((60 : ℕ) : ℚ))
      (intervalOf snow.clamps ((50 : ℕ) : ℚ) (60 : ℕ)) = .ok (decide (k.val = 0 ∨ k.val = 5)) := by
  constructor <;> decide +kernel

/-- A step of 250 s with a save interval of 600 s: saved every 3000 s only. -/
example : isDue ((12 : ℕ) * ((250 : ℕ) : ℚ)) (clampSaveDt ((600 : ℕ) : ℚ) (250 : ℕ)) = .ok true ∧
    ∀ k : Fin 12, k.val ≠ 0 →
      isDue ((k.val : ℚ) * ((250 : ℕ) : ℚ)) (clampSaveDt ((600 : ℕ) : ℚ) (250 : ℕ)) = .ok false := by
  constructor <;> decide +kernel

/-- **C41 (real time steps).**  With any time step of at least one second and a save
interval that is a whole number of seconds and of time steps, step `k` is saved exactly
if its time is a multiple of the save interval. -/
theorem C41_real_step_partial (tab : Table) (dt : K) (s m : ℕ) (hdt : 1 ≤ dt)
    (hs : (s : K) = m * dt) (hm : 0 < m) (k : ℕ) :
    isDue ((k : K) * dt) (intervalOf tab.clamps (s : K) dt) = .ok true ↔
      IsMultiple ((k : K) * dt) (s : K) := by
  have hdt0 : 0 < dt := by linarith
  have hm1 : (1 : K) ≤ m := by exact_mod_cast hm
  have hle : dt ≤ s := by rw [hs]; nlinarith
  have hs0 : 0 < s := by
    have : (0 : K) < s := by linarith
    exact_mod_cast this
  have hc : intervalOf tab.clamps (s : K) dt = s := by
    unfold intervalOf clampSaveDt
    rw [max_eq_left hle, ite_self]
  rw [hc, C41_due_iff _ (by positivity) s hs0]
  constructor
  · rintro ⟨j, h1, h2⟩
    refine ⟨j, ?_⟩
    rw [hs] at h1 h2 ⊢
    have h1' : (j * m : ℕ) ≤ k := by
      have : ((j * m : ℕ) : K) * dt ≤ k * dt := by push_cast; linarith
      exact_mod_cast le_of_mul_le_mul_right this hdt0
    have h2' : k < j * m + 1 := by
      have : (k : K) * dt < ((j * m + 1 : ℕ) : K) * dt := by push_cast; nlinarith
      exact_mod_cast lt_of_mul_lt_mul_right this hdt0.le
    have : k = j * m := by omega
    subst this
    push_cast
    ring
  · rintro ⟨j, hj⟩
    exact ⟨j, hj.ge, by linarith⟩

/-- Non-vacuous: 2.5 s steps, saved every 5 s. -/
example : (1 : ℚ) ≤ 5 / 2 ∧ ((5 : ℕ) : ℚ) = (2 : ℕ) * (5 / 2) ∧
    isDue ((4 : ℕ) * (5 / 2 : ℚ)) (clampSaveDt ((5 : ℕ) : ℚ) (5 / 2)) = .ok true := by
  refine ⟨by norm_num, by norm_num, by decide +kernel⟩

/-- **C41 violated (short steps).**  With a time step below one second every whole save
interval also saves step 1, which is no multiple of it. -/
theorem C41_short_step_violated (tab : Table) (dt : K) (h0 : 0 < dt) (h1 : dt < 1) (s : ℕ)
    (hs : 0 < s) :
    isDue ((1 : ℕ) * dt) (intervalOf tab.clamps (s : K) dt) = .ok true ∧ ¬ IsMultiple dt (s : K) := by
  have hs1 : (1 : K) ≤ s := by exact_mod_cast hs
  have hc : intervalOf tab.clamps (s : K) dt = s := by
    unfold intervalOf clampSaveDt
    rw [max_eq_left (by linarith), ite_self]
  constructor
  · rw [hc, C41_due_iff _ (by push_cast; linarith) s hs]
    exact ⟨0, by push_cast; linarith, by push_cast; linarith⟩
  · rintro ⟨j, hj⟩
    rcases Nat.eq_zero_or_pos j with rfl | hj0
    · simp at hj
      linarith
    · have : (1 : K) ≤ j := by exact_mod_cast hj0
      nlinarith

/-- **C41 violated (fractional intervals).**  For every save interval of two seconds
or more that is not a whole number, with the time step equal to it, some step is not
saved although each step is a multiple of the interval. -/
theorem C41_fractional_violated (tab : Table) (S : K) (h2 : 2 ≤ S) (hS : (⌊S⌋ : K) ≠ S) :
    ∃ k : ℕ, IsMultiple ((k : K) * S) S ∧
      isDue ((k : K) * S) (intervalOf tab.clamps S S) = .ok false := by
  have hf0 : 0 < Int.fract S := by
    rcases lt_or_eq_of_le (Int.fract_nonneg S) with h | h
    · exact h
    · exfalso
      apply hS
      have := Int.self_sub_floor S
      rw [← h] at this
      linarith
  have hf1 : Int.fract S < 1 := Int.fract_lt_one S
  have hfl : 2 ≤ ⌊S⌋ := Int.le_floor.mpr (by exact_mod_cast h2)
  -- the first step at which the fractions add up to one
  obtain ⟨k, hk1, hk2⟩ : ∃ k : ℕ, 1 ≤ k * Int.fract S ∧ k * Int.fract S < 2 := by
    have hc := Nat.le_ceil (1 / Int.fract S)
    have hl := Nat.ceil_lt_add_one (show (0 : K) ≤ 1 / Int.fract S by positivity)
    have he : 1 / Int.fract S * Int.fract S = 1 := by field_simp
    refine ⟨⌈1 / Int.fract S⌉₊, ?_, ?_⟩
    · have := mul_le_mul_of_nonneg_right hc hf0.le
      linarith
    · have := mul_lt_mul_of_pos_right hl hf0
      rw [add_mul, he] at this
      linarith
  refine ⟨k, ⟨k, rfl⟩, ?_⟩
  have hfloor : ⌊(k : K) * S⌋ = k * ⌊S⌋ + 1 := by
    have hS' : S = ⌊S⌋ + Int.fract S := (Int.floor_add_fract S).symm
    rw [Int.floor_eq_iff]
    have : (k : K) * S = k * ⌊S⌋ + k * Int.fract S := by
      conv_lhs => rw [hS']
      ring
    rw [this]
    push_cast
    constructor <;> linarith
  have hS0 : 0 ≤ S := by linarith
  have hc : intervalOf tab.clamps S S = S := by
    unfold intervalOf clampSaveDt
    rw [max_self, ite_self]
  unfold isDue pyMod
  rw [hc]
  simp only [pyInt, if_pos hS0, if_pos (show (0 : K) ≤ k * S by positivity), hfloor]
  rw [if_neg (by omega)]
  simp only [Except.ok.injEq, decide_eq_false_iff_not]
  rw [Int.fmod_eq_emod_of_nonneg _ (by omega), Int.add_comm, Int.add_mul_emod_self_right,
    Int.emod_eq_of_lt (by omega) (by omega)]
  decide

example : (2 : ℚ) ≤ 5 / 2 ∧ ((⌊(5 / 2 : ℚ)⌋ : ℤ) : ℚ) ≠ 5 / 2 := by
  constructor
  · norm_num
  · decide +kernel

omit [IsStrictOrderedRing K] in
theorem zero_interval (tab : Table) (val : ℕ → String → G) (cfg : Config K)
    (hp : pyInt (intervalOf tab.clamps cfg.saveGridDt cfg.dt) = 0) (n : ℕ) :
    run tab cfg val (n + 1) = .error "ZeroDivisionError" := by
  have hu : ∀ n, updates tab cfg val (n + 1) = .error "ZeroDivisionError" := by
    intro n
    induction n with
    | zero =>
      simp only [updates, writeOutput, isDue, pyMod, hp, if_true]
    | succ n ih =>
      rw [updates, ih]
  simp only [run, hu n]

omit [IsStrictOrderedRing K] in
/-- **C41 violated (intervals below one second).**  With a time step and a save interval
below one second every run of at least one step raises `ZeroDivisionError`, whatever
is to be saved. -/
theorem C41_subsecond_violated (tab : Table) (val : ℕ → String → G) (cfg : Config K)
    (h0 : 0 < cfg.dt) (h1 : cfg.dt < 1) (hS0 : 0 ≤ cfg.saveGridDt) (hS1 : cfg.saveGridDt < 1)
    (n : ℕ) :
    run tab cfg val (n + 1) = .error "ZeroDivisionError" := by
  apply zero_interval
  have hc0 : 0 ≤ intervalOf tab.clamps cfg.saveGridDt cfg.dt := by
    unfold intervalOf clampSaveDt
    split
    · exact le_trans h0.le (le_max_right _ _)
    · exact hS0
  have hc1 : intervalOf tab.clamps cfg.saveGridDt cfg.dt < 1 := by
    unfold intervalOf clampSaveDt
    split
    · exact max_lt hS1 h1
    · exact hS1
  unfold pyInt
  rw [if_pos hc0, Int.floor_eq_zero_iff]
  exact ⟨hc0, hc1⟩

/-- **C41 violated (interval zero or below one second; snow, groundwater, evaporation, ice,
glacier).**  These components do not raise the save interval to the time step, so an
interval below one second stops the run in its first step, whatever the time step. -/
theorem C41_zero_interval_violated (tab : Table)
    (ht : tab ∈ [snow, satzone, evap, ice, glacier]) (val : ℕ → String → G) (cfg : Config K)
    (hS0 : -1 < cfg.saveGridDt) (hS1 : cfg.saveGridDt < 1) (n : ℕ) :
    run tab cfg val (n + 1) = .error "ZeroDivisionError" := by
  have hc : tab.clamps = false := by
    simp only [List.mem_cons, List.not_mem_nil, or_false] at ht
    rcases ht with rfl | rfl | rfl | rfl | rfl <;> rfl
  apply zero_interval
  rw [hc]
  simp only [intervalOf, Bool.false_eq_true, if_false]
  unfold pyInt
  split
  · rename_i h
    rw [Int.floor_eq_zero_iff]
    exact ⟨h, hS1⟩
  · rename_i h
    rw [Int.ceil_eq_zero_iff]
    exact ⟨hS0, (not_le.mp h).le⟩

/-- An hour's step and a save interval of zero: snow stops, channels do not. -/
example : (match run (G := ℕ) snow (wholeCfg (K := ℚ) 3600 1 0 0 (fun _ => false))
      (fun k _ => k) 3 with | .ok _ => "ok" | .error e => e) = "ZeroDivisionError" ∧
    (match run (G := ℕ) channels (wholeCfg (K := ℚ) 3600 1 0 0 (fun _ => false))
      (fun k _ => k) 3 with | .ok _ => "ok" | .error e => e) = "ok" := by
  decide +kernel

/-- Half-second steps, saved every half second. -/
example : (0 : ℚ) < 1 / 2 ∧ (1 / 2 : ℚ) < 1 := by norm_num

/-! ## C62 -/

/-- The files of a finished run hold what the switches promised: one row for every step
whose time is a multiple of `eg` seconds (grids) or `ep` seconds (time series). -/
def Delivered (d w eg ep : ℕ) (on : String → Bool) (val : ℕ → String → G) (n : ℕ)
    (pg pp : List Promise) (u : Units K G) : Prop :=
  (∀ p ∈ pg, on p.switch = true →
    u.gs p.file = some ⟨contents ((d : K) * w) (fun k => decide (eg ∣ k * (d * w)))
      (fun k => val k p.quantity) n, false⟩) ∧
  (∀ p ∈ pp, on p.switch = true →
    u.ts p.file = some ⟨contents ((d : K) * w) (fun k => decide (ep ∣ k * (d * w)))
      (fun k => val k p.quantity) n, false⟩)

theorem delivered (tab : Table) (pg pp : List Promise) (d w sg sp eg ep : ℕ)
    (hG : ∀ k : ℕ, isDue ((k : K) * ((d : K) * w)) (intervalOf tab.clamps (sg : K) d) =
      .ok (decide (eg ∣ k * (d * w))))
    (hP : ∀ k : ℕ, isDue ((k : K) * ((d : K) * w)) (intervalOf tab.clamps (sp : K) d) =
      .ok (decide (ep ∣ k * (d * w))))
    (on : String → Bool) (val : ℕ → String → G) (n : ℕ)
    (hnG : (tab.saveGs.map (fun r => r.2.2)).Nodup)
    (hnP : (tab.saveTs.map (fun r => r.2.2)).Nodup)
    (hnC : (gsNames tab.close).Nodup)
    (hts : ∀ r ∈ tab.saveTs, on r.1 = true → (r.1, r.2.2) ∈ tab.openTs)
    (hcl : ∀ f v, CloseOp.gs f v ∈ tab.close → (f, v) ∈ tab.openGs)
    (hpg : ∀ p ∈ pg, (p.switch, p.quantity, p.file) ∈ tab.saveGs ∧
      (p.switch, p.file) ∈ tab.openGs ∧ CloseOp.gs p.switch p.file ∈ tab.close)
    (hpp : ∀ p ∈ pp, (p.switch, p.quantity, p.file) ∈ tab.saveTs ∧
      (p.switch, p.file) ∈ tab.openTs ∧ CloseOp.ts p.switch p.file ∈ tab.close) :
    ∃ u, run tab (wholeCfg (K := K) d w sg sp on) val n = .ok u ∧
      Delivered d w eg ep on val n pg pp u := by
  obtain ⟨u, e, a, b, -⟩ := run_files tab (wholeCfg (K := K) d w sg sp on) val _ _
    hG hP hnG hnP hnC
    (fun f q v h ho => hts (f, q, v) h ho) (fun f v h _ => hcl f v h) n
  refine ⟨u, e, ?_, ?_⟩
  · intro p hp ho
    obtain ⟨h1, h2, h3⟩ := hpg p hp
    exact a _ _ _ h1 ho h2 h3
  · intro p hp ho
    obtain ⟨h1, h2, h3⟩ := hpp p hp
    exact b _ _ _ h1 ho h2 h3

/-- Membership of the closing statements, in a form that can be computed. -/
theorem close_of_all (tab : Table)
    (h : ∀ op ∈ tab.close, match op with
      | .gs f v => (f, v) ∈ tab.openGs
      | .ts _ _ => True) (f v : String) (hm : CloseOp.gs f v ∈ tab.close) :
    (f, v) ∈ tab.openGs := h _ hm

/-- **C62 (channel flow).**  With whole time steps and save intervals, any set of
switches and any history of values, a run ends without error and every file that was
asked for is closed and holds one row for each step that is a multiple of its save
interval, in order, with that step's time and values. -/
theorem C62_channels (d w sg sp : ℕ) (hd : 0 < d) (on : String → Bool)
    (val : ℕ → String → G) (n : ℕ) :
    ∃ u, run channels (wholeCfg (K := K) d w sg sp on) val n = .ok u ∧
      Delivered d w (max sg d) (max sp d) on val n channelsG channelsP u :=
  delivered channels channelsG channelsP d w sg sp _ _ (isDue_clamped d w sg hd)
    (isDue_clamped d w sp hd) on val n (by decide +kernel)
    (by decide +kernel) (by decide +kernel)
    (fun r hr _ => (by decide +kernel : ∀ r ∈ channels.saveTs, (r.1, r.2.2) ∈ channels.openTs) r hr)
    (close_of_all _ (by simp [channels])) (by simp [channels, channelsG])
    (by simp [channels, channelsP])

/-- **C62 (snow).**  The save intervals, positive here, are used as given. -/
theorem C62_snow (d w sg sp : ℕ) (hg : 0 < sg) (hp : 0 < sp)
    (on : String → Bool)
    (val : ℕ → String → G) (n : ℕ) :
    ∃ u, run snow (wholeCfg (K := K) d w sg sp on) val n = .ok u ∧
      Delivered d w sg sp on val n snowG snowP u :=
  delivered snow snowG snowP d w sg sp _ _ (isDue_given d w sg hg)
    (isDue_given d w sp hp) on val n (by decide +kernel)
    (by decide +kernel) (by decide +kernel)
    (fun r hr _ => (by decide +kernel : ∀ r ∈ snow.saveTs, (r.1, r.2.2) ∈ snow.openTs) r hr)
    (close_of_all _ (by simp [snow])) (by simp [snow, snowG]) (by simp [snow, snowP])

/-- **C62 (meteorology).** -/
theorem C62_met (d w sg sp : ℕ) (hd : 0 < d) (on : String → Bool)
    (val : ℕ → String → G) (n : ℕ) :
    ∃ u, run met (wholeCfg (K := K) d w sg sp on) val n = .ok u ∧
      Delivered d w (max sg d) (max sp d) on val n metG metP u :=
  delivered met metG metP d w sg sp _ _ (isDue_clamped d w sg hd)
    (isDue_clamped d w sp hd) on val n (by decide +kernel)
    (by decide +kernel) (by decide +kernel)
    (fun r hr _ => (by decide +kernel : ∀ r ∈ met.saveTs, (r.1, r.2.2) ∈ met.openTs) r hr)
    (close_of_all _ (by simp [met])) (by simp [met, metG]) (by simp [met, metP])

/-- **C62 (groundwater, frozen depth at pixels not asked for).**  The save intervals,
positive here, are used as given. -/
theorem C62_satzone_partial (d w sg sp : ℕ) (hg : 0 < sg) (hp : 0 < sp)
    (on : String → Bool)
    (hoff : on "SAVE_DF_PIXELS" = false) (val : ℕ → String → G) (n : ℕ) :
    ∃ u, run satzone (wholeCfg (K := K) d w sg sp on) val n = .ok u ∧
      Delivered d w sg sp on val n satzoneG satzoneP u :=
  delivered satzone satzoneG satzoneP d w sg sp _ _ (isDue_given d w sg hg)
    (isDue_given d w sp hp) on val n (by decide +kernel)
    (by decide +kernel) (by decide +kernel)
    (by
      intro r hr ho
      simp only [satzone, List.mem_cons, List.not_mem_nil, or_false] at hr
      rcases hr with rfl | rfl | rfl | rfl
      · simp [satzone]
      · simp [satzone]
      · simp [hoff] at ho
      · simp [satzone])
    (close_of_all _ (by simp [satzone])) (by simp [satzone, satzoneG]) (by simp [satzone, satzoneP])

/-- A run of ten 60 s steps with discharge saved every 120 s. -/
example : ((run channels (wholeCfg (K := ℚ) 60 1 120 120 (fun s => s = "SAVE_Q_GRIDS"))
    (fun k _ => k) 10).toOption.bind fun u => (u.gs "Q").map fun f => (f.rows, f.isOpen)) =
    some ([(0, 0), (2, 2), (4, 4), (6, 6), (8, 8)], false) := by decide +kernel

/-- **C62 violated (frozen soil depth).**  For every history the grid file of the
frozen depth ends up empty, without an error: the grids are added under another name. -/
theorem C62_frozen_depth_violated (d w sg sp : ℕ) (hg : 0 < sg) (hp : 0 < sp)
    (on : String → Bool)
    (hon : on "SAVE_DF_GRIDS" = true) (hoff : on "SAVE_DF_PIXELS" = false)
    (val : ℕ → String → G) (n : ℕ) :
    ∃ u, run satzone (wholeCfg (K := K) d w sg sp on) val n = .ok u ∧
      u.gs "d_freeze" = some ⟨[], false⟩ := by
  obtain ⟨u, e, -, -, c, -⟩ := run_files satzone (wholeCfg (K := K) d w sg sp on) val _ _
    (isDue_given d w sg hg) (isDue_given d w sp hp) (by decide +kernel) (by decide +kernel)
    (by decide +kernel)
    (by
      intro f q v hr ho
      simp only [satzone, List.mem_cons, List.not_mem_nil, or_false, Prod.mk.injEq] at hr
      rcases hr with ⟨rfl, rfl, rfl⟩ | ⟨rfl, rfl, rfl⟩ | ⟨rfl, rfl, rfl⟩ | ⟨rfl, rfl, rfl⟩
      · simp [satzone]
      · simp [satzone]
      · simp [wholeCfg, hoff] at ho
      · simp [satzone])
    (fun f v h _ => close_of_all satzone (by simp [satzone]) f v h) n
  exact ⟨u, e, c "SAVE_DF_GRIDS" "d_freeze" (by simp [satzone]) hon (by simp [satzone])
    (by simp [satzone])⟩

/-- **C62 violated (infiltration rate).**  For every history the grid file of the
infiltration rate ends up empty, without an error. -/
theorem C62_infiltration_rate_violated (d w sg sp : ℕ) (hd : 0 < d) (on : String → Bool)
    (hon : on "SAVE_V0_GRIDS" = true) (hoff : on "SAVE_V0_PIXELS" = false)
    (val : ℕ → String → G) (n : ℕ) :
    ∃ u, run infil (wholeCfg (K := K) d w sg sp on) val n = .ok u ∧
      u.gs "v0" = some ⟨[], false⟩ := by
  obtain ⟨u, e, -, -, c, -⟩ := run_files infil (wholeCfg (K := K) d w sg sp on) val _ _
    (isDue_clamped d w sg hd) (isDue_clamped d w sp hd) (by decide +kernel) (by decide +kernel)
    (by decide +kernel)
    (by
      intro f q v hr ho
      simp only [infil, List.mem_cons, List.not_mem_nil, or_false, Prod.mk.injEq] at hr
      rcases hr with ⟨rfl, rfl, rfl⟩ | ⟨rfl, rfl, rfl⟩
      · simp [wholeCfg, hoff] at ho
      · simp [infil])
    (fun f v h _ => close_of_all infil (by simp [infil]) f v h) n
  exact ⟨u, e, c "SAVE_V0_GRIDS" "v0" (by simp [infil]) hon (by simp [infil])
    (by simp [infil])⟩

/-- The first step is always due, so a time series saved under a name that was never
opened stops the run there. -/
theorem pixels_raise (tab : Table) (d w sg sp : ℕ) {eg ep : ℕ}
    (hG : isDue (((0 : ℕ) : K) * ((d : K) * w)) (intervalOf tab.clamps (sg : K) d) =
      .ok (decide (eg ∣ 0 * (d * w))))
    (hP : isDue (((0 : ℕ) : K) * ((d : K) * w)) (intervalOf tab.clamps (sp : K) d) =
      .ok (decide (ep ∣ 0 * (d * w)))) (on : String → Bool)
    (val : ℕ → String → G) (n : ℕ)
    (hbad : ∀ m : String → Option (File K G),
      m = tab.openTs.foldl (fun m r => if on r.1 then openNew m r.2 else m) (fun _ => none) →
      savePixels tab on (0 / 60) (val 0) m = .error "AttributeError") :
    run tab (wholeCfg (K := K) d w sg sp on) val (n + 1) = .error "AttributeError" := by
  simp only [Nat.cast_zero, zero_mul, dvd_zero, decide_true] at hG hP
  have hu : ∀ n, updates tab (wholeCfg (K := K) d w sg sp on) val (n + 1) =
      .error "AttributeError" := by
    intro n
    induction n with
    | zero =>
      have hw : ∀ u : Units K G,
          u.ts = tab.openTs.foldl (fun m r => if on r.1 then openNew m r.2 else m)
            (fun _ => none) →
          writeOutput tab (wholeCfg (K := K) d w sg sp on) { time := 0, timeSec := 0 } (val 0) u =
            .error "AttributeError" := by
        intro u hu
        have hb' := hbad u.ts hu
        have hG' : isDue (0 : K) (intervalOf tab.clamps
          (wholeCfg (K := K) d w sg sp on).saveGridDt (wholeCfg (K := K) d w sg sp on).dt) = .ok true := hG
        have hP' : isDue (0 : K) (intervalOf tab.clamps
          (wholeCfg (K := K) d w sg sp on).savePixelsDt (wholeCfg (K := K) d w sg sp on).dt) = .ok true := hP
        have hb'' : savePixels tab (wholeCfg (K := K) d w sg sp on).on (0 / 60) (val 0) u.ts =
          .error "AttributeError" := hb'
        simp only [writeOutput, hG', hP', if_true, hb'']
      simp only [updates]
      rw [hw _ rfl]
    | succ n ih => rw [updates, ih]
  simp only [run, hu n]

/-- **C62 violated (time series of the frozen depth).**  Asking for them stops every
run in its first step. -/
theorem C62_frozen_depth_pixels_violated (d w sg sp : ℕ) (hg : 0 < sg) (hp : 0 < sp)
    (on : String → Bool)
    (hon : on "SAVE_DF_PIXELS" = true) (val : ℕ → String → G) (n : ℕ) :
    run satzone (wholeCfg (K := K) d w sg sp on) val (n + 1) = .error "AttributeError" := by
  apply pixels_raise satzone d w sg sp (isDue_given d w sg hg 0) (isDue_given d w sp hp 0) on val n
  intro m hm
  have hnone : m "d_flood" = none := by
    rw [hm]
    exact open_not_mem on _ _ _ (by simp [satzone])
  have hsome : ∀ f v, (f, v) ∈ satzone.openTs → on f = true → m v = some ⟨[], true⟩ := by
    intro f v h ho
    rw [hm]
    exact open_mem on _ _ f v h ho
  have hGW := hsome "SAVE_GW_PIXELS" "GW" (by simp [satzone])
  have hHT := hsome "SAVE_HT_PIXELS" "h_table" (by simp [satzone])
  unfold savePixels
  simp only [satzone, List.foldlM_cons]
  cases h1 : on "SAVE_GW_PIXELS" <;> cases h2 : on "SAVE_HT_PIXELS" <;>
    simp [h1, h2, hon, addValues, hGW, hHT, hnone, setAt, bind, Except.bind]

/-- **C62 violated (time series of the infiltration rate).**  Asking for them stops
every run in its first step. -/
theorem C62_infiltration_rate_pixels_violated (d w sg sp : ℕ) (hd : 0 < d)
    (on : String → Bool) (hon : on "SAVE_V0_PIXELS" = true) (val : ℕ → String → G) (n : ℕ) :
    run infil (wholeCfg (K := K) d w sg sp on) val (n + 1) = .error "AttributeError" := by
  apply pixels_raise infil d w sg sp (isDue_clamped d w sg hd 0) (isDue_clamped d w sp hd 0) on val n
  intro m hm
  have hnone : m "IN" = none := by
    rw [hm]
    exact open_not_mem on _ _ _ (by simp [infil])
  unfold savePixels
  simp [infil, hon, addValues, hnone, bind, Except.bind]

/-- **C62 violated (evaporation).**  A run that saves evaporation at pixels never ends
without error: closing looks for the grid file, which is missing or already closed. -/
theorem C62_evaporation_violated (d w sg sp : ℕ) (hg : 0 < sg) (hp : 0 < sp)
    (on : String → Bool)
    (hon : on "SAVE_ET_PIXELS" = true) (val : ℕ → String → G) (n : ℕ) :
    ∃ e, run evap (wholeCfg (K := K) d w sg sp on) val n = .error e := by
  obtain ⟨c, u, e, -, -, iG, -⟩ := updates_inv evap (wholeCfg (K := K) d w sg sp on) val _ _
    (isDue_given d w sg hg) (isDue_given d w sp hp) (by decide +kernel) (by decide +kernel)
    (by
      intro f q v h _
      simp only [evap, List.mem_cons, List.not_mem_nil, or_false, Prod.mk.injEq] at h
      obtain ⟨rfl, rfl, rfl⟩ := h
      simp [evap]) n
  simp only [run, e]
  cases hg : on "SAVE_ET_GRIDS" with
  | true =>
    obtain ⟨rows, hr⟩ := iG.isOpen "SAVE_ET_GRIDS" "ET" (by simp [evap]) hg
    exact ⟨"RuntimeError: NetCDF: Not a valid ID", by simp [closeFiles, evap, closeOne, wholeCfg,
      hg, hon, closeGs, hr, setAt, bind, Except.bind]⟩
  | false =>
    have hr := iG.absent "ET" (by
      intro f hf
      simp only [evap, List.mem_cons, List.not_mem_nil, or_false, Prod.mk.injEq] at hf
      rw [hf.1]
      exact hg)
    exact ⟨"AttributeError", by simp [closeFiles, evap, closeOne, wholeCfg, hg, hon, closeGs, hr,
      bind, Except.bind]⟩

/-- **C62 violated (ice water equivalent).**  The glacier component never closes its
ice water equivalent files. -/
theorem C62_ice_water_violated (d w sg sp : ℕ) (hg : 0 < sg) (hp : 0 < sp)
    (on : String → Bool)
    (hon : on "SAVE_IW_GRIDS" = true) (val : ℕ → String → G) (n : ℕ) :
    ∃ u f, run glacier (wholeCfg (K := K) d w sg sp on) val n = .ok u ∧
      u.gs "iw" = some f ∧ f.isOpen = true := by
  obtain ⟨u, e, -, -, -, c, -⟩ := run_files glacier (wholeCfg (K := K) d w sg sp on) val _ _
    (isDue_given d w sg hg) (isDue_given d w sp hp) (by decide +kernel) (by decide +kernel)
    (by decide +kernel)
    (fun f q v h _ =>
      (by decide +kernel : ∀ r ∈ glacier.saveTs, (r.1, r.2.2) ∈ glacier.openTs) (f, q, v) h)
    (fun f v h _ => close_of_all glacier (by simp [glacier]) f v h) n
  exact ⟨u, _, e, c "SAVE_IW_GRIDS" "h_iwe" "iw" (by simp [glacier]) hon (by simp [glacier])
    (by simp [glacier]), rfl⟩

end Output
