import Verif.RtiProps
import Verif.RtsProps
import Verif.SatzoneProps
import Verif.SnowProps

/-!
# Further theorems about modelled functions (2)

Added because an edited model (seeded/LOG.jsonl) still satisfied the theorems of the other files.
-/

set_option autoImplicit false
set_option linter.unusedSectionVars false

/-! ## C37: grid stacks -/

namespace Rts
open Files

/-- **C37.** After `close`, nothing can be written to and nothing read from a grid stack. -/
theorem C37_closed {V : Type} (cast : String → V → Elt) (fs : Fs) (o : Obj) (g : Arg V) (i : ℤ)
    (k : ℕ) (dtype : String) :
    (∃ e, addGrid cast fs (closeFile o) g i = .error e) ∧
    ∃ e, getGrid fs (closeFile o) k dtype = .error e := by
  rcases hu : o.unit with _ | h
  · constructor
    · unfold addGrid
      simp only [closeFile, hu, Option.map_none, attr]
      repeat' split
      all_goals exact ⟨_, rfl⟩
    · unfold getGrid
      simp only [closeFile, hu, Option.map_none, attr]
      repeat' split
      all_goals first | exact ⟨_, rfl⟩ |
        (exfalso; try simp only [Except.ok.injEq] at *
         try subst_vars
         simp_all)
  · constructor
    · unfold addGrid
      simp only [closeFile, hu, Option.map_some, attr]
      repeat' split
      all_goals first | exact ⟨_, rfl⟩ |
        (exfalso; try simp only [Except.ok.injEq] at *
         try subst_vars
         simp_all)
    · unfold getGrid
      simp only [closeFile, hu, Option.map_some, attr]
      repeat' split
      all_goals first | exact ⟨_, rfl⟩ |
        (exfalso; try simp only [Except.ok.injEq] at *
         try subst_vars
         simp_all)

/-- **C37.** A new grid stack can only be written: reading from it raises before it is opened again. -/
theorem C37_new_file_write_only (fs fs1 : Fs) (o o1 : Obj) (file : Name) (info : Info)
    (dtype dtype' : String) (ow : Bool) (fuel k : ℕ)
    (h : openNewFile fs o file info dtype ow fuel = .ok (o1, fs1)) :
    ∃ e, getGrid fs1 o1 k dtype' = .error e := by
  unfold openNewFile at h
  simp only at h
  split at h
  · cases h
  · split at h
    · cases h
    · simp only [Except.ok.injEq, Prod.mk.injEq] at h
      obtain ⟨h1, -⟩ := h
      unfold getGrid
      subst h1
      simp only [attr]
      repeat' split
      all_goals first | exact ⟨_, rfl⟩ |
        (exfalso; try simp only [Except.ok.injEq] at *
         try subst_vars
         simp_all)

/-- **C37.** A numpy scalar is written as a full grid of that value: `ny * nx` copies of its bytes, when
no byte swap is needed. -/
theorem C37_scalar_grid {V : Type} (cast : String → V → Elt) (fs fs1 : Fs) (o o1 : Obj) (v : V)
    (i : ℤ) (nx ny : ℕ) (dtype : String) (h : Handle)
    (hd : o.dtype = some dtype) (hu : o.unit = some h) (hx : o.nx = some nx) (hy : o.ny = some ny)
    (hok : addGrid cast fs o (.npScalar v) i = .ok (o1, fs1)) :
    ∃ pos, fs1.data h.file = some (writeAt ((fs.data h.file).getD []) pos
      (List.replicate (ny * nx) (cast dtype v)).flatten) ∧
      ∀ n, n ≠ h.file → fs1.data n = fs.data n := by
  unfold addGrid at hok
  simp only [hd, hu, hx, hy, attr] at hok
  split at hok
  · cases hok
  · rename_i pos hp
    split at hok
    · rename_i inf nx' ny' hi hx' hy'
      simp only [Except.ok.injEq] at hx' hy'
      subst hx' hy'
      unfold outGrid at hok
      by_cases hs : inf.swapEndian = true
      · simp [hs] at hok
      · simp only [hs, Bool.false_eq_true, if_false] at hok
        split at hok
        · simp only [Except.ok.injEq, Prod.mk.injEq] at hok
          obtain ⟨-, rfl⟩ := hok
          refine ⟨pos, by simp, fun n hn => by simp [hn]⟩
        · cases hok
    · cases hok

end Rts

/-! ## C38: info files -/

namespace Rti

/-- **C38.** What is stripped from a value in an info file is exactly Python's white space. -/
theorem C38_white_space (c : Char) : isWs c = true ↔ c.toNat ∈
    [9, 10, 11, 12, 13, 28, 29, 30, 31, 32, 133, 160, 5760, 8192, 8193, 8194, 8195, 8196, 8197, 8198,
     8199, 8200, 8201, 8202, 8232, 8233, 8239, 8287, 12288] := by
  unfold isWs
  simp only [Bool.or_eq_true, Bool.and_eq_true, decide_eq_true_eq, beq_iff_eq, List.mem_cons,
    List.not_mem_nil, or_false]
  omega

end Rti

/-! ## C34, C59, C60: groundwater -/

namespace Satzone
open SatSpec

variable {K : Type*} [Field K] [LinearOrder K] [IsStrictOrderedRing K]

theorem fallLoop_exhausted {ls : List (Layer K)} {h d : K} (hp : Physical ls) (hr : InRange ls)
    (hd : soilWater ls < d) :
    fallLoop ls (-d) h = (ls.map (fun l => { l with y := 0 }), -(d - soilWater ls),
      h - (ls.map Layer.y).sum) := by
  induction ls generalizing h d with
  | nil => simp [fallLoop, soilWater]
  | cons l ls ih =>
    have hp' : Physical ls := fun x hx => hp x (List.mem_cons_of_mem _ hx)
    have hr' : InRange ls := fun x hx => hr x (List.mem_cons_of_mem _ hx)
    have hsw : soilWater (l :: ls) = l.y * l.p + soilWater ls := by simp [soilWater]
    have h0 := soilWater_nonneg hp' hr'
    have hl : 0 ≤ l.y * l.p :=
      mul_nonneg (hr l List.mem_cons_self).1 (hp l List.mem_cons_self).2.le
    rw [hsw] at hd
    have hc : |(-d)| > l.y * l.p := by rw [abs_neg, abs_of_nonneg (by linarith)]; linarith
    have e : fallLayer l (-d) h = ({ l with y := 0 }, -(d - l.y * l.p), h - l.y) := by
      simp only [fallLayer, if_pos hc]
      congr 2
      ring
    simp only [fallLoop, e]
    rw [ih hp' hr' (by linarith)]
    simp only [List.map_cons, List.sum_cons, hsw]
    refine Prod.ext rfl (Prod.ext ?_ ?_) <;> simp only [] <;> ring

theorem matches_sum {ls : List (Layer K)} {z h : K} (hp : Physical ls) (hm : Matches h z ls)
    (hz : h ≤ z) (hb : z - depth ls ≤ h) : (ls.map Layer.y).sum = h - (z - depth ls) := by
  induction ls generalizing z with
  | nil =>
    simp only [depth, List.map_nil, List.sum_nil, sub_zero] at hb ⊢
    linarith
  | cons l ls ih =>
    obtain ⟨a, b⟩ := hm
    have hth := (hp l List.mem_cons_self).1
    have hp' : Physical ls := fun x hx => hp x (List.mem_cons_of_mem _ hx)
    have hdep : depth (l :: ls) = l.th + depth ls := by simp [depth]
    rw [hdep] at hb ⊢
    simp only [List.map_cons, List.sum_cons]
    rcases le_total h (z - l.th) with hh | hh
    · have y0 : l.y = 0 := by rw [a, max_eq_right (by linarith), min_eq_left hth.le]
      rw [y0, ih hp' b hh (by linarith)]
      ring
    · have yv : l.y = h - (z - l.th) := by
        rw [a, max_eq_left (by linarith), min_eq_left (by linarith)]
      have full := matches_full hp' b hh
      have : (ls.map Layer.y).sum = depth ls := by
        unfold depth
        congr 1
        exact List.map_congr_left fun x hx => full x hx
      rw [yv, this]
      ring

/-- **C34.** If more is withdrawn than the soil holds, the column runs dry: every layer is empty, and
the water table falls below the lowest layer by the missing amount over the porosity of that layer. -/
theorem C34_exhausted {ls : List (Layer K)} {z h dzw : K} {last : Layer K}
    (hl : ls.getLast? = some last) (hp : Physical ls) (hm : Matches h z ls) (hz : h ≤ z)
    (hb : z - depth ls ≤ h) (hd : soilWater ls < -dzw) :
    ∃ ls' h', updateTable false dzw ls h = some (ls', h') ∧ SameSoil ls ls' ∧
      (∀ l ∈ ls', l.y = 0) ∧ h' = z - depth ls - (-dzw - soilWater ls) / last.p ∧
      h' < z - depth ls := by
  have hr := matches_inRange hp hm
  have h0 := soilWater_nonneg hp hr
  have hneg0 : dzw < 0 := by linarith
  have e := fallLoop_exhausted (h := h) hp hr hd
  rw [neg_neg] at e
  have hlast : 0 < last.p := (hp last (List.mem_of_getLast? hl)).2
  refine ⟨ls.map (fun l => { l with y := 0 }),
    z - depth ls - (-dzw - soilWater ls) / last.p, ?_, ?_, ?_, rfl, ?_⟩
  · unfold updateTable
    rw [hl]
    have hlt : -(-dzw - soilWater ls) < 0 := by linarith
    simp only [if_pos hneg0, riseLoop_zero hp hr, gt_iff_lt, lt_irrefl, if_false,
      not_lt.2 hneg0.le, e, if_pos hlt, Bool.false_eq_true]
    rw [matches_sum hp hm hz hb, neg_div]
    congr 2
    ring
  · unfold SameSoil
    rw [List.map_map]
    rfl
  · intro l hl'
    obtain ⟨x, -, rfl⟩ := List.mem_map.1 hl'
    rfl
  · have : 0 < (-dzw - soilWater ls) / last.p := div_pos (by linarith) hlast
    linarith

/-- **C34.** In a cell without a flow direction the water table is set to zero, whatever the layers and
the inflow. -/
theorem C34_noflow_violated {ls : List (Layer K)} {h dzw : K} (hne : ls ≠ []) :
    ∃ ls', updateTable true dzw ls h = some (ls', 0) := by
  obtain ⟨last, hl⟩ := last_of_ne hne
  unfold updateTable
  rw [hl]
  exact ⟨_, rfl⟩

/-- **C59.** The water table slope used for the discharge is the drop of the water table to the parent
cell over the distance; it is positive exactly when the water table falls towards the parent. -/
theorem C59_slope {C : Type*} (h : C → K) (parent : C → C) (ds : C → K) (c : C) (hd : 0 < ds c) :
    slopeSh h parent ds c * ds c = h c - h (parent c) ∧
    (0 < slopeSh h parent ds c ↔ h (parent c) < h c) := by
  unfold slopeSh
  constructor
  · exact div_mul_cancel₀ _ hd.ne'
  · rw [div_pos_iff_of_pos_right hd, sub_pos]

/-- Two layers of 1 m, porosity 1/2, wet from -3/2 m down; 1 m of water is withdrawn. -/
example : updateTable (K := ℚ) false (-1) [⟨1, 1 / 2, 0⟩, ⟨1, 1 / 2, 1 / 2⟩] (-3 / 2)
    = some ([⟨1, 1 / 2, 0⟩, ⟨1, 1 / 2, 0⟩], -7 / 2) := by decide +kernel

end Satzone

/-! ## C31, C32, C79: snow and ice -/

namespace Snow
open SnowSpec

variable {K : Type*} [Field K] [LinearOrder K] [IsStrictOrderedRing K] {C : Type*} [Fintype C]

/-- **C32.** The cold content at the start is the heat needed to warm the initial snow to the melting
point: zero if it is not colder than that, otherwise density times heat capacity times depth times
the temperature difference. -/
theorem C32_initial_amount (rho Cp h0s h0w T0 Ts : C → K) (c : C) (hr : 0 ≤ rho c) (hc : 0 ≤ Cp c)
    (hh : 0 ≤ h0s c) :
    (T0 c ≤ Ts c → (initSt rho Cp h0s h0w T0 Ts).Ecc c = 0) ∧
    (Ts c ≤ T0 c →
      (initSt rho Cp h0s h0w T0 Ts).Ecc c = rho c * Cp c * h0s c * (T0 c - Ts c)) := by
  have hn : 0 ≤ rho c * Cp c * h0s c := mul_nonneg (mul_nonneg hr hc) hh
  constructor
  · intro h
    exact max_eq_right (mul_nonpos_of_nonneg_of_nonpos hn (by linarith))
  · intro h
    exact max_eq_left (mul_nonneg hn (by linarith))

/-- **C31.** From initialisation on: the snowpack at the end and the reported melt volume together are
the initial snow plus the snow that fell, and no melt is reported before the first update. -/
theorem C31_from_start (p : Params K C) (hdt : 0 < p.dt) (rho Cp h0s h0w T0 Ts : C → K)
    (h0 : ∀ c, 0 ≤ h0w c) (is : List (Inp K C)) (hf : Falls is) :
    let s := initSt rho Cp h0s h0w T0 Ts
    (∀ c, s.SM c = 0) ∧
    snowVolume p (run p s is) + (run p s is).vol_SM =
      ∑ c, h0w c * p.da c + ∑ c, snowfall p.dt is c * p.da c := by
  refine ⟨fun c => rfl, ?_⟩
  have := C31_volumes p hdt (initSt rho Cp h0s h0w T0 Ts) h0 is hf
  rw [this]
  simp [initSt, snowVolume]

/-- **C79.** The cold content of the ice is never negative after an update, and a cell that has lost
its ice has none. -/
theorem C79_ice_cold (p : GParams K C) (i : GInp K C) (s : GSt K C) (c : C) :
    0 ≤ (gStep p i s).Ecci c ∧ (s.h_ice c = 0 → (gStep p i s).Ecci c = 0) ∧
    (s.h_ice c ≠ 0 → (gStep p i s).Ecci c = max (s.Ecci c - i.Q_sum c * p.dt) 0) := by
  have e : (gStep p i s).Ecci c =
      if s.h_ice c = 0 then 0 else max (s.Ecci c - i.Q_sum c * p.dt) 0 := rfl
  rw [e]
  refine ⟨?_, fun h => if_pos h, fun h => if_neg h⟩
  split_ifs
  · exact le_refl _
  · exact le_max_right _ _

end Snow
