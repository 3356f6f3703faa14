import Verif.SoilReadModel
import Mathlib.Tactic.Linarith
import Mathlib.Data.Rat.Floor
import Mathlib.Algebra.Order.Ring.Rat

/-!
# C246: reading the soil parameters of Richards' method
-/

set_option autoImplicit false

namespace SoilRead

section
variable {K : Type*} [Field K] [LinearOrder K]

/-! ## Grids -/

theorem minFrom_mem : ∀ (l : List K) (x : K), minFrom x l ∈ x :: l
  | [], x => by simp [minFrom]
  | y :: l, x => by
    have h := minFrom_mem l (min x y)
    change minFrom (min x y) l ∈ _
    rcases List.mem_cons.1 h with h | h
    · rw [h]
      rcases min_choice x y with e | e <;> rw [e] <;> simp
    · simp [h]

theorem minFrom_le : ∀ (l : List K) (x : K), ∀ z ∈ x :: l, minFrom x l ≤ z
  | [], x, z, hz => by
    have : z = x := by simpa using hz
    subst this; exact le_refl _
  | y :: l, x, z, hz => by
    change minFrom (min x y) l ≤ z
    have h0 := minFrom_le l (min x y) (min x y) (by simp)
    rcases List.mem_cons.1 hz with rfl | hz
    · exact le_trans h0 (min_le_left _ _)
    · rcases List.mem_cons.1 hz with rfl | hz
      · exact le_trans h0 (min_le_right _ _)
      · exact minFrom_le l (min x y) z (by simp [hz])

/-- The smallest positive value of a grid. -/
def IsLeastPositive (l : List K) (m : K) : Prop :=
  m ∈ l ∧ 0 < m ∧ ∀ x ∈ l, 0 < x → m ≤ x

/-- **C246, saturated conductivity.** A grid is accepted exactly if it has a positive value; values
that are not positive are then replaced by the smallest positive one, and positive values are kept. -/
theorem C246_conductivity_iff (l : List K) (hl : l ≠ []) :
    ((∃ v, readKs (.grid l) = .ok v) ↔ ∃ x ∈ l, 0 < x) ∧
    ((∃ x ∈ l, 0 < x) → ∃ m, IsLeastPositive l m ∧
      readKs (.grid l) = .ok (some (.grid (l.map (fun x => if 0 < x then x else m))))) := by
  have key : (∃ x ∈ l, 0 < x) → ∃ m, IsLeastPositive l m ∧
      readKs (.grid l) = .ok (some (.grid (l.map (fun x => if 0 < x then x else m)))) := by
    rintro ⟨x, hx, h0⟩
    have hm : ∀ z, z ∈ positives l ↔ z ∈ l ∧ 0 < z := by
      intro z; simp [positives]
    have hpx := (hm x).2 ⟨hx, h0⟩
    unfold readKs
    dsimp only
    rw [if_neg hl]
    cases hp : positives l with
    | nil => rw [hp] at hpx; simp at hpx
    | cons p ps =>
      rw [hp] at hm
      have h1 := (hm _).1 (minFrom_mem ps p)
      refine ⟨minFrom p ps, ⟨h1.1, h1.2, fun z hz hz0 => minFrom_le ps p z ((hm z).2 ⟨hz, hz0⟩)⟩, ?_⟩
      simp only [Except.ok.injEq, Option.some.injEq, Val.grid.injEq]
      refine List.map_congr_left fun z _ => ?_
      by_cases hz : 0 < z
      · rw [if_pos hz, if_neg (not_le.2 hz)]
      · rw [if_neg hz, if_pos (not_lt.1 hz)]
  refine ⟨⟨?_, fun h => ?_⟩, key⟩
  · rintro ⟨v, hv⟩
    by_contra hn
    have hp : positives l = [] := by
      rw [positives, List.filter_eq_nil_iff]
      intro z hz h0
      exact hn ⟨z, hz, of_decide_eq_true h0⟩
    rw [readKs, if_neg hl, hp] at hv
    cases hv
  · obtain ⟨m, -, h⟩ := key h
    exact ⟨_, h⟩

/-- All values are positive afterwards. -/
theorem C246_conductivity_positive_partial {l l' : List K} (hl : l ≠ [])
    (h : readKs (.grid l) = .ok (some (.grid l'))) :
    l'.length = l.length ∧ ∀ x ∈ l', 0 < x := by
  obtain ⟨m, ⟨-, hm, -⟩, he⟩ := (C246_conductivity_iff l hl).2
    ((C246_conductivity_iff l hl).1.1 ⟨_, h⟩)
  rw [h] at he
  simp only [Except.ok.injEq, Option.some.injEq, Val.grid.injEq] at he
  subst he
  refine ⟨by simp, fun x hx => ?_⟩
  obtain ⟨y, -, rfl⟩ := List.mem_map.1 hx
  by_cases hy : 0 < y
  · rw [if_pos hy]; exact hy
  · rw [if_neg hy]; exact hm

/-- **C246, bubbling pressure and pore size parameter.** Grids are cut off at -3 and at 0.1. -/
theorem C246_cut_off_partial (l : List K) :
    readPB (.grid l) = .ok (some (.grid (l.map (fun x => max x (-3))))) ∧
    readLam (.grid l) = .ok (some (.grid (l.map (fun x => max x (1 / 10))))) := by
  constructor
  · unfold readPB
    simp only [Except.ok.injEq, Option.some.injEq, Val.grid.injEq]
    refine List.map_congr_left fun x _ => ?_
    by_cases h : x < -3
    · rw [if_pos h, max_eq_right h.le]
    · rw [if_neg h, max_eq_left (not_lt.1 h)]
  · unfold readLam
    simp only [Except.ok.injEq, Option.some.injEq, Val.grid.injEq]
    refine List.map_congr_left fun x _ => ?_
    by_cases h : x < 1 / 10
    · rw [if_pos h, max_eq_right h.le]
    · rw [if_neg h, max_eq_left (not_lt.1 h)]

/-- **C246 is violated** for time series: a value for the conductivity, the bubbling pressure or the
pore size parameter always raises an exception. -/
theorem C246_time_series_violated (theta : Given (Val K) → Val K) (y : Layer K)
    (n : Given (Next K)) (h : (∃ x, n.Ks = .number x) ∨ (∃ x, n.pB = .number x) ∨
      ∃ x, n.lam = .number x) : ∀ z, readLayer theta y n ≠ .ok z := by
  intro z hz
  simp only [readLayer, bind, Except.bind] at hz
  rcases h with ⟨x, h⟩ | ⟨x, h⟩ | ⟨x, h⟩
  · rw [h] at hz
    unfold readKs at hz
    by_cases hx : x ≤ 0
    · simp [hx] at hz
    · simp [hx] at hz
  · rw [h] at hz
    cases h1 : readKs n.Ks <;> rw [h1] at hz
    · cases hz
    cases h2 : readPlain n.Ki <;> rw [h2] at hz
    · cases hz
    cases h3 : readPlain n.qs <;> rw [h3] at hz
    · cases hz
    cases h4 : readPlain n.qi <;> rw [h4] at hz
    · cases hz
    cases h5 : readPlain n.qr <;> rw [h5] at hz
    · cases hz
    cases hz
  · rw [h] at hz
    cases h1 : readKs n.Ks <;> rw [h1] at hz
    · cases hz
    cases h2 : readPlain n.Ki <;> rw [h2] at hz
    · cases hz
    cases h3 : readPlain n.qs <;> rw [h3] at hz
    · cases hz
    cases h4 : readPlain n.qi <;> rw [h4] at hz
    · cases hz
    cases h5 : readPlain n.qr <;> rw [h5] at hz
    · cases hz
    cases h6 : readPB n.pB <;> rw [h6] at hz
    · cases hz
    cases h7 : readPlain n.pA <;> rw [h7] at hz
    · cases hz
    cases hz

/-- **C246 is violated** for a grid without a positive conductivity: reading it raises ValueError. -/
theorem C246_no_positive_violated {l : List K} (hl : l ≠ []) (h : ∀ x ∈ l, x ≤ 0) :
    readKs (.grid l) = .error "ValueError" := by
  have hp : positives l = [] := by
    rw [positives, List.filter_eq_nil_iff]
    intro z hz h0
    exact absurd (of_decide_eq_true h0) (not_lt.2 (h z hz))
  rw [readKs, if_neg hl, hp]

/-! ## The component -/

/-- Nothing is read from files. -/
def noFiles : Given (Next K) :=
  ⟨.nothing, .nothing, .nothing, .nothing, .nothing, .nothing, .nothing, .nothing, .nothing⟩

/-- Numbers in the CFG file as values. -/
def asVals (g : Given K) : Given (Val K) :=
  ⟨.num g.Ks, .num g.Ki, .num g.qs, .num g.qi, .num g.qr, .num g.pB, .num g.pA, .num g.lam, .num g.c⟩

theorem readAll_none (theta : Given (Val K) → Val K) : ∀ ys : List (Layer K),
    readAll theta ys (ys.map fun _ => noFiles) = .ok (ys.map fun y => { y with qH := theta y.given })
  | [] => rfl
  | y :: ys => by
    simp only [List.map_cons, readAll, readAll_none theta ys, bind, Except.bind]
    rfl

/-- **C246 is violated** for numbers: those in the CFG file are used as they are, whether or not they
are in the valid range. -/
theorem C246_numbers_violated (theta : Given (Val K) → Val K) (cfg : List (Given K)) :
    ∃ s, initialize' theta cfg (cfg.map fun _ => noFiles) = .ok s ∧
      s.built.map Layer.given = cfg.map asVals := by
  refine ⟨⟨(fromCfg cfg).map fun y => computeLayer theta { y with qH := theta y.given },
    (fromCfg cfg).map fun y => computeLayer theta { y with qH := theta y.given }⟩, ?_, ?_⟩
  · have h := readAll_none theta (fromCfg cfg)
    have e : (fromCfg cfg).map (fun _ => (noFiles : Given (Next K))) = cfg.map fun _ => noFiles := by
      simp [fromCfg, Function.comp_def]
    rw [e] at h
    simp only [initialize', h, bind, Except.bind, List.map_map]
    rfl
  · simp [fromCfg, computeLayer, Function.comp_def, asVals]

/-- Spec: the exponent of the conductivity is 2 + 3 lambda, in every cell. -/
def IsEta : Val K → Val K → Prop
  | .num x, e => e = .num (2 + 3 * x)
  | .grid l, e => e = .grid (l.map (fun x => 2 + 3 * x))

theorem etaOf_spec (v : Val K) : IsEta v (etaOf v) := by
  cases v <;> rfl

/-- Spec: a parameter is what its file says, and without a file the number `x` of the CFG file. -/
def FromFile (x : K) : Next K → Val K → Prop
  | .nothing, v => v = .num x
  | .number t, v => v = .num t
  | .grid l, v => v = .grid l

/-- Spec: a parameter is the grid of its file with smaller values raised to `b`, and without a file
the number `x` of the CFG file. -/
def AtLeast (b x : K) (n : Next K) (v : Val K) : Prop :=
  (n = .nothing → v = .num x) ∧ ∀ l, n = .grid l → v = .grid (l.map (fun t => max t b))

/-- Spec: the parameters of a layer, each from its own file or its own number. -/
def Uses (x : Given K) (n : Given (Next K)) (v : Given (Val K)) : Prop :=
  (n.Ks = .nothing → v.Ks = .num x.Ks) ∧
  (∀ l, l ≠ [] → n.Ks = .grid l → ∃ m, IsLeastPositive l m ∧
    v.Ks = .grid (l.map (fun t => if 0 < t then t else m))) ∧
  FromFile x.Ki n.Ki v.Ki ∧ FromFile x.qs n.qs v.qs ∧ FromFile x.qi n.qi v.qi ∧
  FromFile x.qr n.qr v.qr ∧ AtLeast (-3) x.pB n.pB v.pB ∧ FromFile x.pA n.pA v.pA ∧
  AtLeast (1 / 10) x.lam n.lam v.lam ∧ FromFile x.c n.c v.c

theorem readPlain_spec (x : K) (n : Next K) {o : Option (Val K)} (h : readPlain n = .ok o) :
    FromFile x n (o.getD (.num x)) := by
  cases n <;> simp only [readPlain, Except.ok.injEq] at h <;> subst h <;> rfl

theorem readPB_spec (x : K) (n : Next K) {o : Option (Val K)} (h : readPB n = .ok o) :
    AtLeast (-3) x n (o.getD (.num x)) := by
  refine ⟨?_, ?_⟩
  · rintro rfl
    simp only [readPB, Except.ok.injEq] at h
    subst h; rfl
  · rintro l rfl
    rw [(C246_cut_off_partial l).1] at h
    cases h; rfl

theorem readLam_spec (x : K) (n : Next K) {o : Option (Val K)} (h : readLam n = .ok o) :
    AtLeast (1 / 10) x n (o.getD (.num x)) := by
  refine ⟨?_, ?_⟩
  · rintro rfl
    simp only [readLam, Except.ok.injEq] at h
    subst h; rfl
  · rintro l rfl
    rw [(C246_cut_off_partial l).2] at h
    cases h; rfl

theorem readLayer_spec (theta : Given (Val K) → Val K) (x : Given K) (e q : Val K)
    (n : Given (Next K)) {z : Layer K}
    (h : readLayer theta ⟨⟨.num x.Ks, .num x.Ki, .num x.qs, .num x.qi, .num x.qr, .num x.pB,
      .num x.pA, .num x.lam, .num x.c⟩, e, q⟩ n = .ok z) : Uses x n z.given := by
  simp only [readLayer, bind, Except.bind] at h
  cases h1 : readKs n.Ks with
  | error e => rw [h1] at h; cases h
  | ok o1 =>
  cases h2 : readPlain n.Ki with
  | error e => rw [h1, h2] at h; cases h
  | ok o2 =>
  cases h3 : readPlain n.qs with
  | error e => rw [h1, h2, h3] at h; cases h
  | ok o3 =>
  cases h4 : readPlain n.qi with
  | error e => rw [h1, h2, h3, h4] at h; cases h
  | ok o4 =>
  cases h5 : readPlain n.qr with
  | error e => rw [h1, h2, h3, h4, h5] at h; cases h
  | ok o5 =>
  cases h6 : readPB n.pB with
  | error e => rw [h1, h2, h3, h4, h5, h6] at h; cases h
  | ok o6 =>
  cases h7 : readPlain n.pA with
  | error e => rw [h1, h2, h3, h4, h5, h6, h7] at h; cases h
  | ok o7 =>
  cases h8 : readLam n.lam with
  | error e => rw [h1, h2, h3, h4, h5, h6, h7, h8] at h; cases h
  | ok o8 =>
  cases h9 : readPlain n.c with
  | error e => rw [h1, h2, h3, h4, h5, h6, h7, h8, h9] at h; cases h
  | ok o9 =>
  rw [h1, h2, h3, h4, h5, h6, h7, h8, h9] at h
  simp only [Except.ok.injEq] at h
  subst h
  refine ⟨?_, ?_, readPlain_spec _ _ h2, readPlain_spec _ _ h3, readPlain_spec _ _ h4,
    readPlain_spec _ _ h5, readPB_spec _ _ h6, readPlain_spec _ _ h7, readLam_spec _ _ h8,
    readPlain_spec _ _ h9⟩
  · intro hn
    rw [hn] at h1
    simp only [readKs, Except.ok.injEq] at h1
    subst h1; rfl
  · intro l hl hn
    rw [hn] at h1
    obtain ⟨m, hm, he⟩ := (C246_conductivity_iff l hl).2
      ((C246_conductivity_iff l hl).1.1 ⟨_, h1⟩)
    rw [h1] at he
    cases he
    exact ⟨m, hm, rfl⟩

/-- **C246, where the values come from**: in a component that starts, every parameter of every layer
is the one of its own file, cut off as stated, or the number of the CFG file. -/
theorem C246_values_partial (theta : Given (Val K) → Val K) :
    ∀ (cfg : List (Given K)) (n : List (Given (Next K))) (s : State K), cfg.length = n.length →
      initialize' theta cfg n = .ok s →
      s.built.length = cfg.length ∧
      ∀ (i : ℕ) (x : Given K) (m : Given (Next K)) (y : Layer K),
        cfg[i]? = some x → n[i]? = some m → s.built[i]? = some y → Uses x m y.given := by
  have key : ∀ (cfg : List (Given K)) (n : List (Given (Next K))) (l : List (Layer K)),
      cfg.length = n.length → readAll theta (fromCfg cfg) n = .ok l →
      l.length = cfg.length ∧
      ∀ (i : ℕ) (x : Given K) (m : Given (Next K)) (y : Layer K),
        cfg[i]? = some x → n[i]? = some m → l[i]? = some y → Uses x m y.given := by
    intro cfg
    induction cfg with
    | nil =>
      intro n l hl h
      cases n with
      | cons _ _ => simp at hl
      | nil =>
        simp only [fromCfg, List.map_nil, readAll, Except.ok.injEq] at h
        subst h
        exact ⟨rfl, fun i x m y hx => by simp at hx⟩
    | cons x cfg ih =>
      intro n l hl h
      cases n with
      | nil => simp at hl
      | cons m n =>
        simp only [fromCfg, List.map_cons, readAll, bind, Except.bind] at h
        generalize hz : readLayer theta _ m = o at h
        cases o with
        | error e => cases h
        | ok z =>
          have ih' := ih n
          simp only [fromCfg] at ih'
          generalize readAll theta _ n = o at h ih'
          cases o with
          | error e => cases h
          | ok zs =>
            simp only [Except.ok.injEq] at h
            subst h
            obtain ⟨i1, i2⟩ := ih' zs (by simpa using hl) rfl
            refine ⟨by simp [i1], ?_⟩
            intro i
            cases i with
            | zero =>
              intro a b c ha hb hc
              simp only [List.getElem?_cons_zero, Option.some.injEq] at ha hb hc
              subst ha hb hc
              exact readLayer_spec theta _ _ _ _ hz
            | succ i =>
              intro a b c ha hb hc
              simp only [List.getElem?_cons_succ] at ha hb hc
              exact i2 i a b c ha hb hc
  intro cfg n s hl h
  simp only [initialize', bind, Except.bind] at h
  cases hr : readAll theta (fromCfg cfg) n with
  | error e => rw [hr] at h; cases h
  | ok l =>
    rw [hr] at h
    simp only [Except.ok.injEq] at h
    subst h
    obtain ⟨k1, k2⟩ := key cfg n l hl hr
    refine ⟨by simp [k1], ?_⟩
    intro i x m y hx hm hy
    simp only [List.getElem?_map, Option.map_eq_some_iff] at hy
    obtain ⟨z, hz, rfl⟩ := hy
    exact k2 i x m z hx hm hz

/-- **C246**: the values computed from the others agree with them, in every layer and for every type
of input, when the component starts. -/
theorem C246_computed_partial (theta : Given (Val K) → Val K) (cfg : List (Given K))
    (n : List (Given (Next K))) {s : State K} (h : initialize' theta cfg n = .ok s) :
    ∀ y ∈ s.built, IsEta y.given.lam y.eta ∧ y.qH = theta y.given := by
  simp only [initialize', bind, Except.bind] at h
  cases hr : readAll theta (fromCfg cfg) n with
  | error e => rw [hr] at h; cases h
  | ok l =>
    rw [hr] at h
    simp only [Except.ok.injEq] at h
    subst h
    intro y hy
    obtain ⟨z, -, rfl⟩ := List.mem_map.1 hy
    exact ⟨etaOf_spec _, rfl⟩

theorem readAll_agree (theta : Given (Val K) → Val K) :
    ∀ (ys : List (Layer K)) (ns : List (Given (Next K))) (zs : List (Layer K)),
      readAll theta ys ns = .ok zs → (∀ y ∈ ys, IsEta y.given.lam y.eta) →
      ∀ z ∈ zs, IsEta z.given.lam z.eta ∧ z.qH = theta z.given := by
  intro ys
  induction ys with
  | nil =>
    intro ns zs h _ z hz
    simp only [readAll, Except.ok.injEq] at h
    subst h
    cases hz
  | cons y ys ih =>
    intro ns zs h hy z hz
    cases ns with
    | nil =>
      simp only [readAll, Except.ok.injEq] at h
      subst h
      cases hz
    | cons n ns =>
      simp only [readAll, bind, Except.bind] at h
      cases h1 : readLayer theta y n with
      | error e => rw [h1] at h; cases h
      | ok z1 =>
        rw [h1] at h
        simp only at h
        cases h2 : readAll theta ys ns with
        | error e => rw [h2] at h; cases h
        | ok zs1 =>
          rw [h2] at h
          simp only [Except.ok.injEq] at h
          subst h
          rcases List.mem_cons.1 hz with rfl | hz
          · have hy0 := hy y (by simp)
            simp only [readLayer, bind, Except.bind] at h1
            generalize readKs n.Ks = o1 at h1
            generalize readPlain n.Ki = o2 at h1
            generalize readPlain n.qs = o3 at h1
            generalize readPlain n.qi = o4 at h1
            generalize readPlain n.qr = o5 at h1
            generalize readPB n.pB = o6 at h1
            generalize readPlain n.pA = o7 at h1
            generalize readLam n.lam = o8 at h1
            generalize readPlain n.c = o9 at h1
            rcases o1 with _ | o1
            · cases h1
            rcases o2 with _ | o2
            · cases h1
            rcases o3 with _ | o3
            · cases h1
            rcases o4 with _ | o4
            · cases h1
            rcases o5 with _ | o5
            · cases h1
            rcases o6 with _ | o6
            · cases h1
            rcases o7 with _ | o7
            · cases h1
            rcases o8 with _ | o8
            · cases h1
            rcases o9 with _ | o9
            · cases h1
            simp only [Except.ok.injEq] at h1
            subst h1
            refine ⟨?_, rfl⟩
            cases o8
            · exact hy0
            · exact etaOf_spec _
          · exact ih ns zs1 h2 (fun y hy' => hy y (by simp [hy'])) z hz

/-- **C246**: in the lists read from the files the computed values agree with the others at every
later step as well, for every history of inputs. -/
theorem C246_lists_partial (theta : Given (Val K) → Val K) (cfg : List (Given K))
    (n : List (Given (Next K))) (ns : List (List (Given (Next K)))) {s s' : State K}
    (h : initialize' theta cfg n = .ok s) (h' : updates theta s ns = .ok s') :
    ∀ y ∈ s'.lists, IsEta y.given.lam y.eta ∧ y.qH = theta y.given := by
  have h0 : ∀ y ∈ s.lists, IsEta y.given.lam y.eta ∧ y.qH = theta y.given := by
    have hb : s.lists = s.built := by
      simp only [initialize', bind, Except.bind] at h
      cases hr : readAll theta (fromCfg cfg) n with
      | error e => rw [hr] at h; cases h
      | ok l =>
        rw [hr] at h
        simp only [Except.ok.injEq] at h
        subst h
        rfl
    rw [hb]
    exact C246_computed_partial theta cfg n h
  clear h
  induction ns generalizing s with
  | nil =>
    simp only [updates, Except.ok.injEq] at h'
    subst h'
    exact h0
  | cons m ns ih =>
    simp only [updates, update, bind, Except.bind] at h'
    cases hr : readAll theta s.lists m with
    | error e => rw [hr] at h'; cases h'
    | ok l =>
      rw [hr] at h'
      exact ih (s := { s with lists := l }) h'
        (readAll_agree theta _ _ _ hr (fun y hy => (h0 y hy).1))

/-- **C246 is violated** for sequences of grids: whatever is read in later steps, the equations are
solved with the values of the start. -/
theorem C246_sequence_violated (theta : Given (Val K) → Val K) :
    ∀ (ns : List (List (Given (Next K)))) (s s' : State K), updates theta s ns = .ok s' →
      s'.built = s.built := by
  intro ns
  induction ns with
  | nil =>
    intro s s' h
    simp only [updates, Except.ok.injEq] at h
    rw [h]
  | cons n ns ih =>
    intro s s' h
    simp only [updates, update, bind, Except.bind] at h
    cases hr : readAll theta s.lists n with
    | error e => rw [hr] at h; cases h
    | ok l =>
      rw [hr] at h
      exact ih { s with lists := l } s' h

end

/-! ## Examples -/

/-- A layer of numbers. -/
def loam : Given ℚ := ⟨1 / 100, 1 / 1000, 2 / 5, 1 / 5, 1 / 20, -1, 0, 1 / 5, 1⟩

/-- Conductivities from a grid with gaps. -/
def withGrid (l : List ℚ) : Given (Next ℚ) := { noFiles with Ks := .grid l }

/-- The values of the first layer that are used. -/
def usedKs (r : Except String (State ℚ)) : Option (List ℚ) :=
  match r with
  | .ok ⟨_, y :: _⟩ => match y.given.Ks with
    | .num x => some [x]
    | .grid l => some l
  | _ => none

/-- Gaps are filled with the smallest positive value, -/
example : usedKs (initialize' (fun g => g.qr) [loam] [withGrid [3, 0, -9999, 2]]) =
    some [3, 2, 2, 2] := by decide +kernel

/-- and the second grid of a sequence is read and not used. -/
example : usedKs (initialize' (fun g => g.qr) [loam] [withGrid [3, 0]] >>= fun s =>
    updates (fun g => g.qr) s [[withGrid [7, 8]], [withGrid [9, 9]]]) = some [3, 3] := by
  decide +kernel

/-- The hypotheses of `C246_values_partial` are met with two layers and a grid in the second. -/
example : ∃ s, initialize' (fun g => g.qr) [loam, loam] [noFiles, withGrid [3, 0, -9999, 2]] = .ok s ∧
    s.built.length = 2 := by
  refine ⟨_, rfl, rfl⟩

/-- A negative number in the CFG file is kept. -/
example : usedKs (initialize' (fun g => g.qr) [{ loam with Ks := -1 }] [noFiles]) = some [-1] := by
  decide +kernel

/-- The hypotheses of `C246_no_positive_violated` and `C246_time_series_violated` are met. -/
example : readKs (.grid [(0 : ℚ), -1]) = .error "ValueError" :=
  C246_no_positive_violated (by decide) (by decide +kernel)

example : ∀ z, readLayer (fun g => g.qr) ⟨asVals loam, .num 0, .num 0⟩
    { (noFiles : Given (Next ℚ)) with Ks := .number 1 } ≠ .ok z :=
  C246_time_series_violated _ _ _ (.inl ⟨1, rfl⟩)

end SoilRead
