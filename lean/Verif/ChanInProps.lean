import Verif.ChanInModel
import Verif.InputProps
import Mathlib.Tactic.FinCases
import Mathlib.Tactic.NormNum

/-!
# C247: the channel geometry of a run is the one that was given
-/

set_option autoImplicit false

/-! ## Specification -/
namespace ChanInSpec

open D8 (Cell)
open Input (VarType)
open ChanIn (Source)

variable {ny nx : ℕ}

/-- What an input says about the cells in step `k` (counted from 0): the number of the CFG file; the
grid of the file; the number on line `k` of a time series or the grid with number `k` of a sequence (the
last one from the end of the file on); in each case times the factor. -/
def Says (s : Source) (k : ℕ) (v : Cell ny nx → ℝ) : Prop :=
  match s.ty with
  | .scalar => ∀ c, v c = s.number * s.factor
  | .timeSeries => ∃ vs x, s.file = some (.text (InputSpec.lines vs)) ∧
      vs[min (k + 1) vs.length - 1]? = some x ∧ ∀ c, v c = x * s.factor
  | .grid => ∃ items gs g, s.file = some (.binary items) ∧ InputSpec.Stores items gs ∧
      gs[0]? = some g ∧ ∀ c, v c = g c * s.factor
  | .gridSequence => ∃ items gs g, s.file = some (.binary items) ∧ InputSpec.Stores items gs ∧
      gs[min (k + 1) gs.length - 1]? = some g ∧ ∀ c, v c = g c * s.factor

/-- One number for all cells. -/
def OneNumber (t : VarType) : Prop := t = .scalar ∨ t = .timeSeries

end ChanInSpec

namespace ChanIn

open D8 (Cell)
open Input (Val VarType File)
open ChanInSpec

variable {ny nx : ℕ}

/-- Reading an input delivers what it says about the first step. -/
lemma readInput_says (hp : 0 < ny * nx) (s : Source) (hf : s.ty = .scalar → s.factor = 1)
    (v : Cell ny nx → ℝ) (h : Says s 0 v) :
    ∃ x : Val ℝ ny nx, readInput s = .ok x ∧ (∀ c, x.at c = v c) ∧
      (OneNumber s.ty → ∃ a, x = .sc a) ∧ (¬ OneNumber s.ty → x = .gr v) := by
  obtain ⟨ty, number, file, factor⟩ := s
  cases ty with
  | scalar =>
    simp only [Says] at h
    have : factor = 1 := hf rfl
    subst this
    refine ⟨.sc number, rfl, fun c => ?_, fun _ => ⟨_, rfl⟩, fun hn => absurd (Or.inl rfl) hn⟩
    simp [Val.at, h c]
  | timeSeries =>
    simp only [Says] at h
    obtain ⟨vs, x, rfl, hx, hv⟩ := h
    have hne : vs ≠ [] := by rintro rfl; simp at hx
    obtain ⟨f, e⟩ := Input.C40_time_series (ny := ny) (nx := nx) vs 1 factor 0 1 one_pos hne x
      (by simpa using hx)
    simp only [Input.readMany] at e
    refine ⟨.sc (x * factor), ?_, fun c => ?_, fun _ => ⟨_, rfl⟩, fun hn => absurd (Or.inr rfl) hn⟩
    · simp only [readInput, Input.initVar]
      cases hr : Input.readVar VarType.timeSeries 1 factor
          ((.sc 0 : Val ℝ ny nx), File.text (InputSpec.lines vs)) with
      | error e' => rw [hr] at e; simp at e
      | ok r =>
        rw [hr] at e
        simp only [Except.ok.injEq] at e
        subst e
        simp
    · simp [Val.at, hv c]
  | grid =>
    simp only [Says] at h
    obtain ⟨items, gs, g, rfl, hs, hg, hv⟩ := h
    have hne : gs ≠ [] := by rintro rfl; simp at hg
    have hl : 0 < gs.length := List.length_pos_of_ne_nil hne
    obtain ⟨f, e⟩ := Input.C40_grid_sequence (ny := ny) (nx := nx) .grid (Or.inl rfl) hp items gs hs
      1 factor (fun _ => 0) 1 one_pos hne g (by rw [Nat.min_eq_left hl]; exact hg)
    simp only [Input.readMany] at e
    refine ⟨.gr v, ?_, fun c => rfl, fun hn => ?_, fun _ => rfl⟩
    · simp only [readInput, Input.initVar]
      cases hr : Input.readVar VarType.grid 1 factor
          ((.gr (fun _ => 0) : Val ℝ ny nx), File.binary items) with
      | error e' => rw [hr] at e; simp at e
      | ok r =>
        rw [hr] at e
        simp only [Except.ok.injEq] at e
        subst e
        simp only [Except.ok.injEq, Val.gr.injEq]
        funext c
        rw [hv c, mul_one]
    · rcases hn with hn | hn <;> cases hn
  | gridSequence =>
    simp only [Says] at h
    obtain ⟨items, gs, g, rfl, hs, hg, hv⟩ := h
    have hne : gs ≠ [] := by rintro rfl; simp at hg
    obtain ⟨f, e⟩ := Input.C40_grid_sequence (ny := ny) (nx := nx) .gridSequence (Or.inr rfl) hp items
      gs hs 1 factor (fun _ => 0) 1 one_pos hne g (by simpa using hg)
    simp only [Input.readMany] at e
    refine ⟨.gr v, ?_, fun c => rfl, fun hn => ?_, fun _ => rfl⟩
    · simp only [readInput, Input.initVar]
      cases hr : Input.readVar VarType.gridSequence 1 factor
          ((.gr (fun _ => 0) : Val ℝ ny nx), File.binary items) with
      | error e' => rw [hr] at e; simp at e
      | ok r =>
        rw [hr] at e
        simp only [Except.ok.injEq] at e
        subst e
        simp only [Except.ok.injEq, Val.gr.injEq]
        funext c
        rw [hv c, mul_one]
    · rcases hn with hn | hn <;> cases hn

lemma atStep_ok (i : Inputs) (f : Flow ny nx) (k : ℕ) (g : Geometry ny nx) (h : start i f = .ok g) :
    atStep i f k = .ok g := by
  have : ∀ n, updateInputs^[n] g = g := by
    intro n
    induction n with
    | zero => rfl
    | succ n ih => rw [Function.iterate_succ_apply']; exact ih
  simp only [atStep, h, this]

lemma scale_at (a : ℝ) (x : Val ℝ ny nx) (c : Cell ny nx) : (x.scale a).at c = x.at c * a := by
  cases x <;> rfl

/-- **C247**: in every step of a run the channels have the geometry that the inputs say **for the first
step**: the width (where it is zero, the flow width of the cell), the bank angle in radians, the
sinuosity, the bankfull depth; the flow length of the cell times the sinuosity, the slope divided by it;
and at the start of the run the given depth of water, and the volume of a trapezoid of that depth.
Partial: what time series and sequences say about later steps is not used; a factor of an input that is
a number must be 1; a width that is one number must not be zero. -/
theorem C247_geometry_partial (hp : 0 < ny * nx) (i : Inputs) (f : Flow ny nx) (k : ℕ)
    (slope width angle sinu d0 bank : Cell ny nx → ℝ)
    (hslope : Says { i.slope with ty := .grid } 0 slope)
    (hwidth : Says i.width 0 width) (hangle : Says i.angle 0 angle) (hsinu : Says i.sinu 0 sinu)
    (hd0 : Says i.d0 0 d0) (hbank : Says i.d_bankfull 0 bank)
    (hrough : i.MANNING = true → ∃ n, Says (ny := ny) (nx := nx) i.nval 0 n)
    (hrough' : i.LAW_OF_WALL = true → ∃ n, Says (ny := ny) (nx := nx) i.z0val 0 n)
    (hfactor : ∀ s ∈ [i.width, i.angle, i.sinu, i.d0, i.d_bankfull, i.nval, i.z0val],
      s.ty = .scalar → s.factor = 1)
    (hzero : OneNumber i.width.ty → ∀ c, width c ≠ 0) :
    ∃ g, atStep i f k = .ok g ∧ ∀ c,
      g.width.at c = (if width c = 0 then f.dw c else width c) ∧
      g.angle.at c = angle c * (Real.pi / 180) ∧
      g.sinu.at c = sinu c ∧
      g.d_bankfull.at c = bank c ∧
      g.length c = sinu c * f.ds c ∧
      g.slope c = slope c / sinu c ∧
      g.depth c = d0 c ∧
      g.volume c = d0 c * ((if width c = 0 then f.dw c else width c)
        + d0 c * Real.tan (angle c * (Real.pi / 180))) * (sinu c * f.ds c) ∧
      (i.MANNING = true → i.LAW_OF_WALL = false → ∀ n, Says i.nval 0 n → g.nval.at c = n c) ∧
      (i.MANNING = false → i.LAW_OF_WALL = true → ∀ n, Says i.z0val 0 n → g.z0val.at c = n c) := by
  obtain ⟨xs, es, as, -, -⟩ := readInput_says hp _ (by intro h; cases h) slope hslope
  obtain ⟨xw, ew, aw, ow, gw⟩ := readInput_says hp _ (hfactor _ (by simp)) width hwidth
  obtain ⟨xa, ea, aa, -, -⟩ := readInput_says hp _ (hfactor _ (by simp)) angle hangle
  obtain ⟨xu, eu, au, -, -⟩ := readInput_says hp _ (hfactor _ (by simp)) sinu hsinu
  obtain ⟨xd, ed, ad, -, -⟩ := readInput_says hp _ (hfactor _ (by simp)) d0 hd0
  obtain ⟨xb, eb, ab, -, -⟩ := readInput_says hp _ (hfactor _ (by simp)) bank hbank
  obtain ⟨xn, en, an⟩ : ∃ x : Val ℝ ny nx,
      readRough i.MANNING i.nval = .ok x ∧
      (i.MANNING = true → ∀ n, Says i.nval 0 n → ∀ c, x.at c = n c) := by
    cases hm : i.MANNING with
    | false => exact ⟨_, rfl, by simp⟩
    | true =>
      obtain ⟨n0, h0⟩ := hrough hm
      obtain ⟨x, e, -, -, -⟩ := readInput_says hp _ (hfactor i.nval (by simp)) n0 h0
      refine ⟨x, e, fun _ n hn c => ?_⟩
      obtain ⟨y, e', a', -, -⟩ := readInput_says hp _ (hfactor i.nval (by simp)) n hn
      rw [e] at e'
      cases e'
      exact a' c
  obtain ⟨xz, ez, az⟩ : ∃ x : Val ℝ ny nx,
      readRough i.LAW_OF_WALL i.z0val = .ok x ∧
      (i.LAW_OF_WALL = true → ∀ n, Says i.z0val 0 n → ∀ c, x.at c = n c) := by
    cases hm : i.LAW_OF_WALL with
    | false => exact ⟨_, rfl, by simp⟩
    | true =>
      obtain ⟨n0, h0⟩ := hrough' hm
      obtain ⟨x, e, -, -, -⟩ := readInput_says hp _ (hfactor i.z0val (by simp)) n0 h0
      refine ⟨x, e, fun _ n hn c => ?_⟩
      obtain ⟨y, e', a', -, -⟩ := readInput_says hp _ (hfactor i.z0val (by simp)) n hn
      rw [e] at e'
      cases e'
      exact a' c
  obtain ⟨yw, fw, bw⟩ : ∃ y : Val ℝ ny nx, fixWidth f xw = .ok y ∧
      ∀ c, y.at c = (if width c = 0 then f.dw c else width c) := by
    by_cases ho : OneNumber i.width.ty
    · obtain ⟨a, rfl⟩ := ow ho
      have hc : ∀ c, a = width c := fun c => aw c
      have ha : a ≠ 0 := by
        have h1 : 0 < ny := Nat.pos_of_mul_pos_right hp
        have h2 : 0 < nx := Nat.pos_of_mul_pos_left hp
        have := hzero ho (⟨0, h1⟩, ⟨0, h2⟩)
        rw [← hc] at this
        exact this
      refine ⟨.sc a, by simp only [fixWidth, if_neg ha], fun c => ?_⟩
      rw [if_neg (hzero ho c)]
      exact aw c
    · rw [gw ho]
      exact ⟨_, rfl, fun c => rfl⟩
  have hv : readInputs i = .ok (⟨xs, xn, xz, xw, xa, xu, xd, xb⟩ : Vars ny nx) := by
    simp only [readInputs, es, en, ez, ew, ea, eu, ed, eb, bind, Except.bind]
  have hg : ∃ g, compute i f (⟨xs, xn, xz, xw, xa, xu, xd, xb⟩ : Vars ny nx) = .ok g ∧
      g.width = yw ∧ g.angle = xa.scale (Real.pi / 180) ∧ g.sinu = xu ∧ g.d_bankfull = xb ∧
      (∀ c, g.length c = xu.at c * f.ds c) ∧ (∀ c, g.slope c = xs.at c / xu.at c) ∧
      (∀ c, g.depth c = 0 + xd.at c) ∧
      (∀ c, g.volume c = (0 + xd.at c) * (yw.at c + (0 + xd.at c)
        * Real.tan ((xa.scale (Real.pi / 180)).at c)) * (xu.at c * f.ds c)) ∧
      (i.MANNING = true → i.LAW_OF_WALL = false → g.nval = xn) ∧
      (i.MANNING = false → i.LAW_OF_WALL = true → g.z0val = xz) := by
    simp only [compute, fw, bind, Except.bind]
    refine ⟨_, rfl, rfl, rfl, rfl, rfl, fun _ => rfl, fun _ => rfl, fun _ => rfl, fun _ => rfl, ?_, ?_⟩
    · intro h1 h2; simp [h1, h2]
    · intro h1 h2; simp [h1, h2]
  obtain ⟨g, eg, g1, g2, g3, g4, g5, g6, g7, g8, g9, g10⟩ := hg
  refine ⟨g, atStep_ok i f k g (by simp only [start, hv, eg]), fun c => ?_⟩
  refine ⟨by rw [g1, bw], by rw [g2, scale_at, aa], by rw [g3, au], by rw [g4, ab],
    by rw [g5, au], by rw [g6, as, au], by rw [g7, ad, zero_add], ?_, ?_, ?_⟩
  · rw [g8, bw, scale_at, aa, ad, au, zero_add]
  · intro h1 h2 n hn
    rw [g9 h1 h2]
    exact an h1 n hn c
  · intro h1 h2 n hn
    rw [g10 h1 h2]
    exact az h2 n hn c

/-- A number in the CFG file. -/
noncomputable def number (x : ℝ) : Source := ⟨.scalar, x, none, 1⟩

/-- A file with one grid of one row and two columns. -/
noncomputable def twoCells (a b : ℝ) : Source := ⟨.grid, 0, some (.binary [a, b]), 1⟩

/-- A time series. -/
noncomputable def series (vs : List ℝ) : Source := ⟨.timeSeries, 0, some (.text (InputSpec.lines vs)), 1⟩

lemma twoCells_says (a b : ℝ) :
    Says (ny := 1) (nx := 2) (twoCells a b) 0 (fun c => if c.2.val = 0 then a else b) := by
  refine ⟨[a, b], [fun c => if c.2.val = 0 then a else b], _, rfl, ⟨by simp, ?_⟩, rfl, ?_⟩
  · intro k g hk i j
    match k with
    | 0 =>
      simp only [List.getElem?_cons_zero, Option.some.injEq] at hk
      subst hk
      fin_cases i; fin_cases j <;> simp
    | k + 1 => simp at hk
  · intro c; simp [twoCells]

/-- Numbers everywhere but for the slope, and Manning's formula. -/
noncomputable def plain : Inputs :=
  ⟨true, false, twoCells 1 2, number 3, number 4, number 5, number 6, number 2, number 7, number 8⟩

noncomputable def flow2 : Flow 1 2 := ⟨fun _ => 10, fun _ => 20⟩

/-- The hypotheses can be met: the slope is halved and the length is doubled by a sinuosity of 2. -/
example : ∃ g, atStep plain flow2 3 = .ok g ∧
    g.slope (0, 0) = 1 / 2 ∧ g.length (0, 1) = 20 ∧ g.nval.at (0, 0) = 3 := by
  have n : ∀ x : ℝ, Says (ny := 1) (nx := 2) (number x) 0 (fun _ => x) := by
    intro x c; simp [number]
  obtain ⟨g, e, h⟩ := C247_geometry_partial (ny := 1) (nx := 2) (by norm_num) plain flow2 3
    (fun c => if c.2.val = 0 then 1 else 2) (fun _ => 5) (fun _ => 6) (fun _ => 2) (fun _ => 7)
    (fun _ => 8) (twoCells_says 1 2) (n 5) (n 6) (n 2) (n 7) (n 8) (fun _ => ⟨_, n 3⟩)
    (fun h => by simp [plain] at h) (by simp [plain, number]) (by intro _ c; norm_num)
  have a0 := h (0, 0)
  have a1 := h (0, 1)
  refine ⟨g, e, by simpa using a0.2.2.2.2.2.1, ?_, ?_⟩
  · rw [a1.2.2.2.2.1]; simp only [flow2]; norm_num
  · exact a0.2.2.2.2.2.2.2.2.1 rfl rfl _ (n 3)

/-- **C247 is violated** by time series (and sequences of grids), which the CFG files allow: the file
says that the width is 5 in the first step and 9 from the second on, and it stays 5. -/
theorem C247_time_series_violated :
    Says (ny := 1) (nx := 2) (series [5, 9]) 1 (fun _ => 9) ∧
    ∃ g, atStep { plain with width := series [5, 9] } flow2 1 = .ok g ∧ g.width.at (0, 0) = 5 := by
  refine ⟨⟨[5, 9], 9, rfl, by simp, by simp [series]⟩, ?_⟩
  have n : ∀ x : ℝ, Says (ny := 1) (nx := 2) (number x) 0 (fun _ => x) := by
    intro x c; simp [number]
  obtain ⟨g, e, h⟩ := C247_geometry_partial (ny := 1) (nx := 2) (by norm_num)
    { plain with width := series [5, 9] } flow2 1
    (fun c => if c.2.val = 0 then 1 else 2) (fun _ => 5) (fun _ => 6) (fun _ => 2) (fun _ => 7)
    (fun _ => 8) (twoCells_says 1 2) ⟨[5, 9], 5, rfl, by simp, by simp [series]⟩ (n 6) (n 2) (n 7) (n 8)
    (fun _ => ⟨_, n 3⟩) (fun h => by simp [plain] at h) (by simp [plain, number, series])
    (by intro _ c; norm_num)
  exact ⟨g, e, by rw [(h (0, 0)).1]; norm_num⟩

/-- **C247**, for inputs that are numbers, whatever the factor: the number is used without it. -/
theorem C247_number_factor_partial (s : Source) (h : s.ty = .scalar) :
    readInput s = .ok (.sc s.number : Val ℝ ny nx) := by
  obtain ⟨ty, number, file, factor⟩ := s
  cases h
  rfl

/-- **C247 is violated** by the factor of an input that is a number: a width of 5 with the factor 2 is
used as 5. -/
theorem C247_number_factor_violated :
    Says (ny := 1) (nx := 2) ⟨.scalar, 5, none, 2⟩ 0 (fun _ => 10) ∧
    ∃ g, atStep { plain with width := ⟨.scalar, 5, none, 2⟩ } flow2 0 = .ok g ∧
      g.width.at (0, 0) = 5 := by
  refine ⟨fun c => by norm_num, ?_⟩
  have n : ∀ x : ℝ, Says (ny := 1) (nx := 2) (number x) 0 (fun _ => x) := by
    intro x c; simp [number]
  obtain ⟨g, e, h⟩ := C247_geometry_partial (ny := 1) (nx := 2) (by norm_num) plain flow2 0
    (fun c => if c.2.val = 0 then 1 else 2) (fun _ => 5) (fun _ => 6) (fun _ => 2) (fun _ => 7)
    (fun _ => 8) (twoCells_says 1 2) (n 5) (n 6) (n 2) (n 7) (n 8) (fun _ => ⟨_, n 3⟩)
    (fun h => by simp [plain] at h) (by simp [plain, number]) (by intro _ c; norm_num)
  exact ⟨g, e, by rw [(h (0, 0)).1]; norm_num⟩

/-- **C247**: a width of zero that is one number for all cells stops the run at its start, although a
grid with zeros does not. -/
theorem C247_zero_width_violated (i : Inputs) (f : Flow ny nx) (k : ℕ) (h : i.width = number 0) :
    ∃ e, atStep i f k = .error e := by
  have hc : ∀ v : Vars ny nx, v.width = .sc 0 → compute i f v = .error "ValueError" := by
    intro v hv
    simp [compute, hv, fixWidth, bind, Except.bind]
  have hr : ∀ v : Vars ny nx, readInputs i = .ok v → v.width = .sc 0 := by
    intro v hv
    have ew : readInput i.width = .ok (.sc 0 : Val ℝ ny nx) := by rw [h]; rfl
    simp only [readInputs, bind, Except.bind, ew] at hv
    repeat' split at hv
    all_goals first
      | (cases hv; rfl)
      | cases hv
  cases hi : readInputs (ny := ny) (nx := nx) i with
  | error e => exact ⟨e, by simp only [atStep, start, hi]⟩
  | ok v => exact ⟨"ValueError", by simp only [atStep, start, hi, hc v (hr v hi)]⟩

/-- **C247**, the roughness when both formulas, or none, are chosen: both roughness parameters are -1 in
every cell, whatever was given. -/
theorem C247_both_formulas_violated (i : Inputs) (f : Flow ny nx) (k : ℕ) (g : Geometry ny nx)
    (hm : i.MANNING = i.LAW_OF_WALL) (h : atStep i f k = .ok g) (c : Cell ny nx) :
    g.nval.at c = -1 ∧ g.z0val.at c = -1 := by
  cases hs : start i f with
  | error e => simp only [atStep, hs] at h; cases h
  | ok g' =>
    rw [atStep_ok i f k g' hs] at h
    cases h
    simp only [start] at hs
    cases hv : readInputs (ny := ny) (nx := nx) i with
    | error e => rw [hv] at hs; cases hs
    | ok v =>
      rw [hv] at hs
      simp only [compute, bind, Except.bind] at hs
      cases hw : fixWidth f v.width with
      | error e => rw [hw] at hs; cases hs
      | ok w =>
        rw [hw] at hs
        cases hs
        cases hl : i.LAW_OF_WALL <;> simp [hm, hl, Val.at]

/-- **C247 is violated** by an empty grid file: it is read without a complaint as zeros. -/
theorem C247_empty_file_violated (t : VarType) (ht : t = .grid ∨ t = .gridSequence) (x factor : ℝ) :
    readInput ⟨t, x, some (.binary []), factor⟩ = .ok (.gr (fun _ => 0) : Val ℝ ny nx) := by
  rcases ht with rfl | rfl <;>
    simp [readInput, Input.readVar, Input.readNext, Input.readGrid_nil, Input.updateVar, Input.initVar]

/-- **C247**: a grid file that does not exist, or that ends within the first grid, stops the run. -/
theorem C247_missing_file_partial (t : VarType) (ht : t = .grid ∨ t = .gridSequence) (x factor : ℝ)
    (file : Option (File ℝ))
    (hf : file = none ∨ ∃ items, file = some (.binary items) ∧ 0 < items.length ∧
      items.length < ny * nx) :
    ∃ e, readInput (ny := ny) (nx := nx) ⟨t, x, file, factor⟩ = .error e := by
  rcases hf with rfl | ⟨items, rfl, h0, h1⟩
  · rcases ht with rfl | rfl <;> exact ⟨_, rfl⟩
  · obtain ⟨e, he⟩ := Input.C40_truncated (ny := ny) (nx := nx) t ht items 1 factor
      (Input.initVar t x) h0 h1
    exact ⟨e, by rcases ht with rfl | rfl <;> simp only [readInput, he]⟩

end ChanIn
