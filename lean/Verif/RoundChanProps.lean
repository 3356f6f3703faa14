import Verif.RoundChanModel
import Verif.RoundProps
import Verif.ChannelProps
import Mathlib.Tactic.GCongr

/-! # C255: channel volumes in floating point -/

set_option autoImplicit false
set_option linter.unusedSectionVars false

noncomputable section

open scoped BigOperators
open D8 (Cell)

/-! Specification. -/
namespace RoundChanSpec

open RoundChan ChanSpec

variable {ny nx : ℕ}

/-- Water entering the channel of a cell: the runoff or, with attenuation, what the reservoir of the
cell gives in a step, at most its content. -/
def entering (r : ℝ → ℝ) (p : Par ny nx) (i : In ny nx) (s : St ny nx) (c : Cell ny nx) : ℝ :=
  let runoff := r (r (i.R c * p.da c) * p.dt)
  if p.att then
    min (r (r (r (s.stored c + runoff) / r (r 86400 * p.nDays)) * p.dt)) (r (s.stored c + runoff))
  else runoff

/-- Water in a cell after an update, if volumes could be negative and additions were exact: old
volume, water entering, what the cells upstream lose, minus what the cell loses. -/
def balance (r : ℝ → ℝ) (p : Par ny nx) (codes : Cell ny nx → ℤ) (i : In ny nx) (s : St ny nx)
    (c : Cell ny nx) : ℝ :=
  s.vol c + entering r p i s c + inflow codes (fun e => r (i.Q e * p.dt)) c - r (i.Q c * p.dt)

/-- All the water involved. -/
def amounts (r : ℝ → ℝ) (p : Par ny nx) (codes : Cell ny nx → ℤ) (i : In ny nx) (s : St ny nx)
    (c : Cell ny nx) : ℝ :=
  |s.vol c| + |s.stored c| + |r (r (i.R c * p.da c) * p.dt)| + |entering r p i s c| +
    inflow codes (fun e => |r (i.Q e * p.dt)|) c + |r (i.Q c * p.dt)|

/-- Runoff of a history. -/
def runoffTotal (r : ℝ → ℝ) (p : Par ny nx) (is : List (In ny nx)) : ℝ :=
  (is.map (fun i => ∑ c, r (r (i.R c * p.da c) * p.dt))).sum

/-- Water created by emptying overdrawn cells, in a history of states and inputs. -/
def createdTotal (r : ℝ → ℝ) (p : Par ny nx) (codes : Cell ny nx → ℤ)
    (h : List (St ny nx × In ny nx)) : ℝ :=
  (h.map (fun x => ∑ c, max 0 (-(balance r p codes x.2 x.1 c)))).sum

/-- Water in the channels and reservoirs and gone over the edge. -/
def total (s : St ny nx) : ℝ := ∑ c, s.vol c + ∑ c, s.stored c + s.volEdge

/-- Volumes are machine numbers. -/
def Floats (r : ℝ → ℝ) (s : St ny nx) : Prop :=
  ∀ c, r (s.vol c) = s.vol c ∧ r (s.stored c) = s.stored c

end RoundChanSpec

namespace RoundChan

open Chan (Net GoodNet)
open ChanSpec RoundChanSpec Round

variable {ny nx : ℕ} {R : Rounding ℝ}

/-- `x` is a computed sum: `S` is the exact one, `A` the sum of the absolute values. -/
structure Err (R : Rounding ℝ) (n : ℕ) (x S A : ℝ) : Prop where
  err : |x - S| ≤ ((1 + R.u) ^ n - 1) * A
  abs : |S| ≤ A
  float : R.rnd x = x

theorem pow_ge (n : ℕ) : 0 ≤ (1 + R.u) ^ n - 1 :=
  sub_nonneg.2 (one_le_pow₀ (by have := R.u_nonneg; linarith))

theorem Err.add {n : ℕ} {x S A g : ℝ} (h : Err R n x S A) (hg : R.rnd g = g) :
    Err R (n + 1) (R.rnd (x + g)) (S + g) (A + |g|) := by
  have hu := R.u_nonneg
  have hE := pow_ge (R := R) n
  have hA : 0 ≤ A := (abs_nonneg _).trans h.abs
  refine ⟨?_, (abs_add_le _ _).trans (add_le_add h.abs le_rfl), R.idem _⟩
  have h1 := R.add_err x g h.float hg
  have h2 : |x + g| ≤ (A + |g|) + ((1 + R.u) ^ n - 1) * A := by
    have : x + g = (S + g) + (x - S) := by ring
    rw [this]
    refine (abs_add_le _ _).trans (add_le_add ?_ h.err)
    exact (abs_add_le _ _).trans (add_le_add h.abs le_rfl)
  have h3 : |R.rnd (x + g) - (S + g)| ≤ R.u * |x + g| + ((1 + R.u) ^ n - 1) * A := by
    have : R.rnd (x + g) - (S + g) = (R.rnd (x + g) - (x + g)) + (x - S) := by ring
    rw [this]
    exact (abs_add_le _ _).trans (add_le_add h1 h.err)
  have h4 := mul_le_mul_of_nonneg_left h2 hu
  have h5 : ((1 + R.u) ^ n - 1) * A ≤ ((1 + R.u) ^ n - 1) * (A + |g|) :=
    mul_le_mul_of_nonneg_left (by have := abs_nonneg g; linarith) hE
  have h6 := mul_le_mul_of_nonneg_left h5 (show 0 ≤ 1 + R.u by linarith)
  calc |R.rnd (x + g) - (S + g)|
      ≤ R.u * (A + |g|) + (1 + R.u) * (((1 + R.u) ^ n - 1) * A) := by linarith
    _ ≤ R.u * (A + |g|) + (1 + R.u) * (((1 + R.u) ^ n - 1) * (A + |g|)) := by linarith
    _ = ((1 + R.u) ^ (n + 1) - 1) * (A + |g|) := by ring

theorem Err.weaken {n : ℕ} {x S A : ℝ} (h : Err R n x S A) : Err R (n + 1) x S A := by
  have hu := R.u_nonneg
  have hA : 0 ≤ A := (abs_nonneg _).trans h.abs
  refine ⟨h.err.trans (mul_le_mul_of_nonneg_right ?_ hA), h.abs, h.float⟩
  have : (1 + R.u) ^ n ≤ (1 + R.u) ^ (n + 1) := pow_le_pow_right₀ (by linarith) (Nat.le_succ n)
  linarith

theorem eleven : (1 + R.u) ^ 10 - 1 ≤ 11 * R.u := by
  have h0 := R.u_nonneg
  have h1 := R.u_small
  generalize R.u = u at *
  have hq : u * u ≤ u / 64 := by nlinarith
  have a2 : (1 + u) ^ 2 ≤ 1 + 2.02 * u := by nlinarith
  have a4 : (1 + u) ^ 4 ≤ 1 + 4.11 * u := by
    have e : (1 + u) ^ 4 = (1 + u) ^ 2 * (1 + u) ^ 2 := by ring
    have := mul_le_mul a2 a2 (by positivity) (by positivity)
    rw [e]; nlinarith
  have a8 : (1 + u) ^ 8 ≤ 1 + 8.5 * u := by
    have e : (1 + u) ^ 8 = (1 + u) ^ 4 * (1 + u) ^ 4 := by ring
    have := mul_le_mul a4 a4 (by positivity) (by positivity)
    rw [e]; nlinarith
  have e : (1 + u) ^ 10 = (1 + u) ^ 8 * (1 + u) ^ 2 := by ring
  have := mul_le_mul a8 a2 (by positivity) (by positivity)
  rw [e]; nlinarith

/-- One of the eight blocks: a cell gets the water of at most one upstream cell. -/
theorem fancy_foldR (v : Cell ny nx → ℝ) (par : Cell ny nx → Cell ny nx) (g : Cell ny nx → ℝ)
    (l : List (Cell ny nx)) (hl : (l.map par).Nodup) (acc : Cell ny nx → ℝ) (c : Cell ny nx)
    (hacc : acc c = v c) :
    ((l.filter (fun e => par e = c)) = [] ∧
      (((l.map par).zip (l.map g)).foldl
        (fun acc px => Function.update acc px.1 (R.rnd (v px.1 + px.2))) acc) c = v c) ∨
    (∃ e, l.filter (fun e => par e = c) = [e] ∧
      (((l.map par).zip (l.map g)).foldl
        (fun acc px => Function.update acc px.1 (R.rnd (v px.1 + px.2))) acc) c =
        R.rnd (v c + g e)) := by
  induction l generalizing acc with
  | nil => exact Or.inl ⟨rfl, by simpa using hacc⟩
  | cons e l ih =>
    simp only [List.map_cons, List.nodup_cons] at hl
    simp only [List.map_cons, List.zip_cons_cons, List.foldl_cons]
    by_cases he : par e = c
    · have hnot : ∀ e' ∈ l, par e' ≠ c := by
        intro e' he' h
        exact hl.1 (List.mem_map.2 ⟨e', he', h.trans he.symm⟩)
      have hf : l.filter (fun e => decide (par e = c)) = [] := by
        rw [List.filter_eq_nil_iff]
        intro e' he'
        simpa using hnot e' he'
      have key : ∀ (l : List (Cell ny nx)), (∀ e' ∈ l, par e' ≠ c) → ∀ acc : Cell ny nx → ℝ,
          (((l.map par).zip (l.map g)).foldl
            (fun acc px => Function.update acc px.1 (R.rnd (v px.1 + px.2))) acc) c = acc c := by
        intro l
        induction l with
        | nil => intro _ acc; rfl
        | cons a l ih =>
          intro h acc
          simp only [List.map_cons, List.zip_cons_cons, List.foldl_cons]
          rw [ih (fun e' he' => h e' (List.mem_cons_of_mem _ he'))]
          exact Function.update_of_ne (h a List.mem_cons_self).symm _ _
      refine Or.inr ⟨e, ?_, ?_⟩
      · rw [List.filter_cons_of_pos (by simpa using he), hf]
      · rw [key l hnot, he]
        simp
    · rw [List.filter_cons_of_neg (by simpa using he)]
      exact ih hl.2 _ (by rw [Function.update_of_ne (fun h => he h.symm), hacc])

theorem Err.fancy {n : ℕ} {S A : ℝ} (v : Cell ny nx → ℝ) (par : Cell ny nx → Cell ny nx)
    (g : Cell ny nx → ℝ) (l : List (Cell ny nx)) (hl : (l.map par).Nodup) (c : Cell ny nx)
    (h : Err R n (v c) S A) (hg : ∀ e, R.rnd (g e) = g e) :
    Err R (n + 1) (fancyAddR R.rnd v (l.map par) (l.map g) c)
      (S + ((l.filter (fun e => par e = c)).map g).sum)
      (A + ((l.filter (fun e => par e = c)).map (fun e => |g e|)).sum) := by
  unfold fancyAddR
  rcases fancy_foldR (R := R) v par g l hl v c rfl with ⟨h1, h2⟩ | ⟨e, h1, h2⟩
  · rw [h2, h1]
    simpa using h.weaken
  · rw [h2, h1]
    simpa using h.add (hg e)

theorem Err.fold (net : Net ny nx) (hn : ∀ k, ((net.w k).map net.parent).Nodup)
    (g : Cell ny nx → ℝ) (hg : ∀ e, R.rnd (g e) = g e) (ks : List (Fin 8)) (n : ℕ) (S A : ℝ)
    (v : Cell ny nx → ℝ) (c : Cell ny nx) (h : Err R n (v c) S A) :
    Err R (n + ks.length)
      ((ks.foldl (fun v k => fancyAddR R.rnd v ((net.w k).map net.parent) ((net.w k).map g)) v) c)
      (S + (ks.map (fun k => (((net.w k).filter (fun e => net.parent e = c)).map g).sum)).sum)
      (A + (ks.map (fun k =>
        (((net.w k).filter (fun e => net.parent e = c)).map (fun e => |g e|)).sum)).sum) := by
  induction ks generalizing v n S A with
  | nil => simpa using h
  | cons k ks ih =>
    have h1 := h.fancy v net.parent g (net.w k) (hn k) c hg
    have h2 := ih (n + 1) _ _ _ h1
    rw [List.foldl_cons, List.map_cons, List.map_cons, List.sum_cons, List.sum_cons, List.length_cons,
      show n + (ks.length + 1) = n + 1 + ks.length by omega, ← add_assoc, ← add_assoc]
    exact h2

theorem fold_sum {codes : Cell ny nx → ℤ} {net : Net ny nx} (h : GoodNet codes net)
    (g : Cell ny nx → ℝ) (c : Cell ny nx) :
    ((List.finRange 8).map
      (fun k => (((net.w k).filter (fun e => net.parent e = c)).map g).sum)).sum = inflow codes g c := by
  have h1 := Chan.fold_add net h.par_nodup g (List.finRange 8) (fun _ => 0) c
  rw [Chan.fold_inflow h] at h1
  linarith

variable {codes : Cell ny nx → ℤ} {net : Net ny nx} {p : Par ny nx}

/-- C255: what a cell loses is the very number that its downstream cell receives. -/
theorem C255_same_number (i : In ny nx) : sent R.rnd p i = taken R.rnd p i := by
  funext c
  unfold sent taken
  rw [mul_comm]

theorem gain_entering (i : In ny nx) (s : St ny nx) (c : Cell ny nx) :
    (gain R.rnd p i s.stored c).1 = entering R.rnd p i s c := by
  unfold gain entering
  rw [show (86400 : ℝ) = 3600 * 24 by norm_num]
  cases h : p.att
  · rfl
  · rfl

theorem entering_float (i : In ny nx) (s : St ny nx) (c : Cell ny nx) :
    R.rnd (entering R.rnd p i s c) = entering R.rnd p i s c := by
  unfold entering
  dsimp only
  cases h : p.att
  · exact R.idem _
  · rw [if_pos rfl]
    rcases min_choice (R.rnd (R.rnd (R.rnd (s.stored c + R.rnd (R.rnd (i.R c * p.da c) * p.dt)) /
      R.rnd (R.rnd 86400 * p.nDays)) * p.dt)) (R.rnd (s.stored c + R.rnd (R.rnd (i.R c * p.da c) * p.dt)))
      with h | h <;> rw [h] <;> exact R.idem _

theorem newVol_bound (hd : IsDemNet codes net) (i : In ny nx) (g vol : Cell ny nx → ℝ)
    (c : Cell ny nx) (hv : R.rnd (vol c) = vol c) (hgf : R.rnd (g c) = g c) :
    |newVol R.rnd p net i g vol c -
        max (vol c + g c + inflow codes (taken R.rnd p i) c - taken R.rnd p i c) 0| ≤
      11 * R.u * (|vol c| + |g c| + inflow codes (fun e => |taken R.rnd p i e|) c +
        |taken R.rnd p i c|) := by
  have hg := Chan.IsDemNet.good hd
  have h0 : Err R 0 (vol c) (vol c) |vol c| := ⟨by simp, le_rfl, hv⟩
  have h1 : Err R 1 (R.rnd (vol c + g c)) (vol c + g c) (|vol c| + |g c|) := h0.add hgf
  have h2 := Err.fold (R := R) net hg.par_nodup (sent R.rnd p i) (fun e => R.idem _)
    (List.finRange 8) 1 _ _ (fun c => R.rnd (vol c + g c)) c h1
  rw [fold_sum hg, fold_sum hg (fun e => |sent R.rnd p i e|), C255_same_number] at h2
  have hneg : R.rnd (-taken R.rnd p i c) = -taken R.rnd p i c := by
    rw [R.odd]
    congr 1
    exact R.idem _
  have h3 := h2.add hneg
  rw [abs_neg, List.length_finRange] at h3
  have e : newVol R.rnd p net i g vol c = max (R.rnd ((((List.finRange 8).foldl
      (fun v k => fancyAddR R.rnd v ((net.w k).map net.parent) ((net.w k).map (taken R.rnd p i)))
      (fun c => R.rnd (vol c + g c))) c) + -taken R.rnd p i c)) 0 := by
    unfold newVol
    rw [C255_same_number, ← sub_eq_add_neg]
  rw [e]
  refine (abs_max_sub_max_le_abs _ _ _).trans ?_
  have hA := (abs_nonneg _).trans h3.abs
  have h5 := mul_le_mul_of_nonneg_right (eleven (R := R)) hA
  refine le_trans ?_ h5
  rw [sub_eq_add_neg (vol c + g c + _)]
  exact h3.err

theorem stored_bound (i : In ny nx) (s : St ny nx) (c : Cell ny nx)
    (hs : R.rnd (s.stored c) = s.stored c) :
    R.rnd (gain R.rnd p i s.stored c).2 = (gain R.rnd p i s.stored c).2 ∧
    |(gain R.rnd p i s.stored c).2 - (s.stored c + runoff R.rnd p i c - entering R.rnd p i s c)| ≤
      3 * R.u * (|s.stored c| + |runoff R.rnd p i c| + |entering R.rnd p i s c|) := by
  have hu := R.u_nonneg
  have hf := entering_float (R := R) (p := p) i s c
  rw [← gain_entering] at hf ⊢
  cases h : p.att
  · have e : gain R.rnd p i s.stored c = (runoff R.rnd p i c, s.stored c) := by
      unfold gain
      rw [h]
      rfl
    rw [e]
    refine ⟨hs, ?_⟩
    rw [show s.stored c - (s.stored c + runoff R.rnd p i c - runoff R.rnd p i c) = 0 by ring, abs_zero]
    positivity
  · have e2 : (gain R.rnd p i s.stored c).2 =
        max (R.rnd (R.rnd (s.stored c + runoff R.rnd p i c) - (gain R.rnd p i s.stored c).1)) 0 := by
      unfold gain
      rw [h]
      rfl
    have hle : (gain R.rnd p i s.stored c).1 ≤ R.rnd (s.stored c + runoff R.rnd p i c) := by
      unfold gain
      rw [h]
      exact min_le_right _ _
    rw [e2]
    generalize (gain R.rnd p i s.stored c).1 = g at *
    have h0 : Err R 0 (s.stored c) (s.stored c) |s.stored c| := ⟨by simp, le_rfl, hs⟩
    have h1 := h0.add (R.idem _ : R.rnd (runoff R.rnd p i c) = runoff R.rnd p i c)
    have hneg : R.rnd (-g) = -g := by rw [R.odd, hf]
    have h2 := h1.add hneg
    rw [← sub_eq_add_neg, ← sub_eq_add_neg, abs_neg] at h2
    have h3 : 0 ≤ R.rnd (R.rnd (s.stored c + runoff R.rnd p i c) - g) := by
      have := R.mono _ _ (show (0 : ℝ) ≤ R.rnd (s.stored c + runoff R.rnd p i c) - g by linarith)
      rwa [R.zero] at this
    rw [max_eq_left h3]
    refine ⟨h2.float, h2.err.trans (mul_le_mul_of_nonneg_right ?_ (by positivity))⟩
    have h64 := R.u_small
    have hq : R.u * R.u ≤ 1 * R.u := mul_le_mul_of_nonneg_right (by linarith) hu
    have e : (1 + R.u) ^ (0 + 1 + 1) - 1 = 2 * R.u + R.u * R.u := by ring
    rw [e]
    linarith

/-- C255: the volume of a cell after an update, up to eleven rounding units of the water involved;
and the content of its reservoir, up to three. -/
theorem C255_cell_balance (hd : IsDemNet codes net) (i : In ny nx) (s : St ny nx)
    (hv : Floats R.rnd s) (c : Cell ny nx) :
    (codes c ≠ 0 → |(step R.rnd p net i s).vol c - max (RoundChanSpec.balance R.rnd p codes i s c) 0| ≤
      11 * R.u * amounts R.rnd p codes i s c) ∧
    (codes c = 0 → (step R.rnd p net i s).vol c = 0) ∧
    |(step R.rnd p net i s).stored c -
        (s.stored c + R.rnd (R.rnd (i.R c * p.da c) * p.dt) - entering R.rnd p i s c)| ≤
      3 * R.u * amounts R.rnd p codes i s c := by
  have hu := R.u_nonneg
  have hg := Chan.IsDemNet.good hd
  have hin : 0 ≤ inflow codes (fun e => |R.rnd (i.Q e * p.dt)|) c :=
    Finset.sum_nonneg (fun _ _ => abs_nonneg _)
  refine ⟨fun hc => ?_, fun hc => ?_, ?_⟩
  · have hm : c ∉ net.noflow := fun h => hc ((hg.noflow c).1 h)
    have e : (step R.rnd p net i s).vol c =
        newVol R.rnd p net i (fun c => (gain R.rnd p i s.stored c).1) s.vol c := if_neg hm
    rw [e]
    have h1 := newVol_bound (p := p) hd i (fun c => (gain R.rnd p i s.stored c).1) s.vol c (hv c).1
      (by rw [gain_entering]; exact entering_float i s c)
    rw [gain_entering] at h1
    refine h1.trans (mul_le_mul_of_nonneg_left ?_ (by positivity))
    unfold amounts taken
    have := abs_nonneg (s.stored c)
    have := abs_nonneg (R.rnd (R.rnd (i.R c * p.da c) * p.dt))
    linarith
  · exact if_pos ((hg.noflow c).2 hc)
  · refine (stored_bound i s c (hv c).2).2.trans (mul_le_mul_of_nonneg_left ?_ (by positivity))
    unfold amounts runoff
    have := abs_nonneg (s.vol c)
    have := abs_nonneg (R.rnd (i.Q c * p.dt))
    linarith

theorem sum_balance (hd : IsDemNet codes net) (i : In ny nx) (hQ : ∀ c, codes c = 0 → i.Q c = 0)
    (s : St ny nx) :
    ∑ c, RoundChanSpec.balance R.rnd p codes i s c = ∑ c, s.vol c + ∑ c, entering R.rnd p i s c := by
  have hg := Chan.IsDemNet.good hd
  have h1 := Chan.sum_inflow hg (fun e => R.rnd (i.Q e * p.dt)) (fun c hc => by
    show R.rnd (i.Q c * p.dt) = 0
    rw [hQ c hc, zero_mul, R.zero])
  unfold RoundChanSpec.balance
  rw [Finset.sum_sub_distrib, Finset.sum_add_distrib, Finset.sum_add_distrib, h1]
  ring

theorem total_step (hd : IsDemNet codes net) (i : In ny nx) (s : St ny nx) :
    total (step R.rnd p net i s) =
      ∑ c, newVol R.rnd p net i (fun c => (gain R.rnd p i s.stored c).1) s.vol c +
        ∑ c, (gain R.rnd p i s.stored c).2 + s.volEdge := by
  have hg := Chan.IsDemNet.good hd
  unfold total step
  dsimp only
  rw [← List.sum_toFinset _ hg.noflow_nodup]
  generalize newVol R.rnd p net i (fun c => (gain R.rnd p i s.stored c).1) s.vol = v
  have h1 : ∀ c, (if c ∈ net.noflow then (0 : ℝ) else v c) =
      v c - (if c ∈ net.noflow.toFinset then v c else 0) := by
    intro c
    by_cases h : c ∈ net.noflow
    · simp [h]
    · simp [h]
  rw [Finset.sum_congr rfl (fun c _ => h1 c), Finset.sum_sub_distrib, Finset.sum_ite_mem,
    Finset.univ_inter]
  ring

/-- C255: the water balance of one update: transfers between cells cancel exactly. -/
theorem C255_update_balance (hd : IsDemNet codes net) (i : In ny nx)
    (hQ : ∀ c, codes c = 0 → i.Q c = 0) (s : St ny nx) (hv : Floats R.rnd s) :
    |total (step R.rnd p net i s) -
        (total s + ∑ c, R.rnd (R.rnd (i.R c * p.da c) * p.dt) +
          ∑ c, max 0 (-(RoundChanSpec.balance R.rnd p codes i s c)))| ≤
      14 * R.u * ∑ c, amounts R.rnd p codes i s c := by
  have hu := R.u_nonneg
  rw [total_step hd]
  have h1 : ∑ c, max (RoundChanSpec.balance R.rnd p codes i s c) 0 =
      ∑ c, RoundChanSpec.balance R.rnd p codes i s c +
        ∑ c, max 0 (-(RoundChanSpec.balance R.rnd p codes i s c)) := by
    rw [← Finset.sum_add_distrib]
    refine Finset.sum_congr rfl (fun c _ => ?_)
    rcases le_total 0 (RoundChanSpec.balance R.rnd p codes i s c) with h | h
    · rw [max_eq_left h, max_eq_left (by linarith)]; ring
    · rw [max_eq_right h, max_eq_right (by linarith)]; ring
  rw [sum_balance hd i hQ] at h1
  have h2 : ∑ c, newVol R.rnd p net i (fun c => (gain R.rnd p i s.stored c).1) s.vol c +
        ∑ c, (gain R.rnd p i s.stored c).2 + s.volEdge -
      (total s + ∑ c, R.rnd (R.rnd (i.R c * p.da c) * p.dt) +
          ∑ c, max 0 (-(RoundChanSpec.balance R.rnd p codes i s c))) =
      ∑ c, ((newVol R.rnd p net i (fun c => (gain R.rnd p i s.stored c).1) s.vol c -
          max (RoundChanSpec.balance R.rnd p codes i s c) 0) +
        ((gain R.rnd p i s.stored c).2 -
          (s.stored c + R.rnd (R.rnd (i.R c * p.da c) * p.dt) - entering R.rnd p i s c))) := by
    rw [Finset.sum_add_distrib, Finset.sum_sub_distrib, Finset.sum_sub_distrib, Finset.sum_sub_distrib,
      Finset.sum_add_distrib, h1]
    unfold total
    ring
  rw [h2, Finset.mul_sum]
  refine (Finset.abs_sum_le_sum_abs _ _).trans (Finset.sum_le_sum (fun c _ => ?_))
  have b1 := newVol_bound (p := p) hd i (fun c => (gain R.rnd p i s.stored c).1) s.vol c (hv c).1
    (by rw [gain_entering]; exact entering_float i s c)
  rw [gain_entering] at b1
  have b2 := (stored_bound (p := p) i s c (hv c).2).2
  have hin : 0 ≤ inflow codes (fun e => |R.rnd (i.Q e * p.dt)|) c :=
    Finset.sum_nonneg (fun _ _ => abs_nonneg _)
  have c1 : |s.vol c| + |entering R.rnd p i s c| + inflow codes (fun e => |taken R.rnd p i e|) c +
      |taken R.rnd p i c| ≤ amounts R.rnd p codes i s c := by
    unfold amounts taken
    have := abs_nonneg (s.stored c)
    have := abs_nonneg (R.rnd (R.rnd (i.R c * p.da c) * p.dt))
    linarith
  have c2 : |s.stored c| + |runoff R.rnd p i c| + |entering R.rnd p i s c| ≤
      amounts R.rnd p codes i s c := by
    unfold amounts runoff
    have := abs_nonneg (s.vol c)
    have := abs_nonneg (R.rnd (i.Q c * p.dt))
    linarith
  have d1 := mul_le_mul_of_nonneg_left c1 (show 0 ≤ 11 * R.u by positivity)
  have d2 := mul_le_mul_of_nonneg_left c2 (show 0 ≤ 3 * R.u by positivity)
  refine (abs_add_le _ _).trans ?_
  have f1 := b1.trans d1
  have f2 := b2.trans d2
  have e : 14 * R.u * amounts R.rnd p codes i s c =
      11 * R.u * amounts R.rnd p codes i s c + 3 * R.u * amounts R.rnd p codes i s c := by ring
  rw [e]
  exact add_le_add f1 f2

theorem step_float (i : In ny nx) (s : St ny nx) (hv : Floats R.rnd s) :
    Floats R.rnd (step R.rnd p net i s) := by
  refine fun c => ⟨?_, (stored_bound i s c (hv c).2).1⟩
  unfold step
  dsimp only
  by_cases h : c ∈ net.noflow
  · rw [if_pos h, R.zero]
  · rw [if_neg h]
    unfold newVol
    dsimp only
    rcases max_choice (R.rnd (((List.finRange 8).foldl (fun v k => fancyAddR R.rnd v
      ((net.w k).map net.parent) ((net.w k).map (sent R.rnd p i)))
      (fun c => R.rnd (s.vol c + (gain R.rnd p i s.stored c).1))) c - taken R.rnd p i c)) 0 with h | h
    · rw [h]; exact R.idem _
    · rw [h]; exact R.zero

/-- C255: no negative volumes, in any history; with attenuation no negative reservoirs. -/
theorem C255_never_negative (s : St ny nx) (is : List (In ny nx)) :
    ∀ t ∈ states R.rnd p net s is, ∀ c, 0 ≤ t.vol c ∧ (p.att = true → 0 ≤ t.stored c) := by
  induction is generalizing s with
  | nil => intro t ht; simp [states] at ht
  | cons i is ih =>
    intro t ht c
    rcases List.mem_cons.1 ht with rfl | ht
    · constructor
      · unfold step
        dsimp only
        by_cases h : c ∈ net.noflow
        · rw [if_pos h]
        · rw [if_neg h]; exact le_max_right _ _
      · intro h
        show 0 ≤ (gain R.rnd p i s.stored c).2
        unfold gain
        rw [h]
        exact le_max_right _ _
    · exact ih _ t ht c

/-- C255: the water balance of any history. -/
theorem C255_balance (hd : IsDemNet codes net) (M : ℝ) (s : St ny nx) (is : List (In ny nx))
    (hQ : ∀ i ∈ is, ∀ c, codes c = 0 → i.Q c = 0) (hv : Floats R.rnd s)
    (hM : ∀ x ∈ (s :: states R.rnd p net s is).zip is, ∑ c, amounts R.rnd p codes x.2 x.1 c ≤ M) :
    |total (run R.rnd p net s is) -
        (total s + runoffTotal R.rnd p is +
          createdTotal R.rnd p codes ((s :: states R.rnd p net s is).zip is))| ≤
      is.length * (14 * R.u * M) := by
  induction is generalizing s with
  | nil => simp [run, runoffTotal, createdTotal]
  | cons i is ih =>
    have h1 := C255_update_balance (p := p) hd i (hQ i List.mem_cons_self) s hv
    have h2 := h1.trans (mul_le_mul_of_nonneg_left (hM (s, i) (by simp))
      (show 0 ≤ 14 * R.u from mul_nonneg (by norm_num) R.u_nonneg))
    have h3 := ih (step R.rnd p net i s) (fun j hj => hQ j (List.mem_cons_of_mem _ hj))
      (step_float i s hv) (fun x hx => hM x (by
        rw [states, List.zip_cons_cons]
        exact List.mem_cons_of_mem _ hx))
    have e1 : runoffTotal R.rnd p (i :: is) =
        ∑ c, R.rnd (R.rnd (i.R c * p.da c) * p.dt) + runoffTotal R.rnd p is := rfl
    have e2 : createdTotal R.rnd p codes ((s :: states R.rnd p net s (i :: is)).zip (i :: is)) =
        ∑ c, max 0 (-(RoundChanSpec.balance R.rnd p codes i s c)) + createdTotal R.rnd p codes
          ((step R.rnd p net i s :: states R.rnd p net (step R.rnd p net i s) is).zip is) := rfl
    have e3 : run R.rnd p net s (i :: is) = run R.rnd p net (step R.rnd p net i s) is := rfl
    rw [e1, e2, e3, List.length_cons]
    push_cast
    rw [add_mul, one_mul]
    have a2 := abs_le.1 h2
    have a3 := abs_le.1 h3
    rw [abs_le]
    constructor <;> linarith [a2.1, a2.2, a3.1, a3.2]

/-- C255 for doubles. -/
theorem C255_doubles (hd : IsDemNet codes net) (M : ℝ) (s : St ny nx) (is : List (In ny nx))
    (hQ : ∀ i ∈ is, ∀ c, codes c = 0 → i.Q c = 0) (hv : Floats rnd64 s)
    (hM : ∀ x ∈ (s :: states rnd64 p net s is).zip is, ∑ c, amounts rnd64 p codes x.2 x.1 c ≤ M) :
    |total (run rnd64 p net s is) -
        (total s + runoffTotal rnd64 p is +
          createdTotal rnd64 p codes ((s :: states rnd64 p net s is).zip is))| ≤
      is.length * (14 / 2 ^ 53 * M) := by
  have h := C255_balance (R := binary64 ℝ) (p := p) hd M s is hQ hv hM
  have e : 14 * (binary64 ℝ).u = 14 / 2 ^ 53 := by
    show 14 * unit64 ℝ = _
    unfold unit64
    ring
  rw [e] at h
  exact h

/-- The hypotheses are met on every network of a DEM: 5 m3 in each cell, 0.1 m3/s where water flows,
with and without attenuation (networks of DEMs with flow exist, see `RechargeProps.lean`). -/
example (hd : IsDemNet codes net) (a : Bool) :
    let p : Par ny nx := ⟨6, fun _ => 900, a, 5⟩
    let i : In ny nx := ⟨fun _ => 1 / 100000, fun c => if codes c = 0 then 0 else 1 / 10⟩
    let s : St ny nx := ⟨fun _ => 5, fun _ => 5, 0⟩
    |total (step rnd64 p net i s) -
      (total s + ∑ _c : Cell ny nx, rnd64 (rnd64 ((1 / 100000 : ℝ) * 900) * 6) +
        ∑ c, max 0 (-(RoundChanSpec.balance rnd64 p codes i s c)))| ≤
      14 * unit64 ℝ * ∑ c, amounts rnd64 p codes i s c := by
  have h := rnd64_int (K := ℝ) 5 (by norm_num)
  push_cast at h
  exact C255_update_balance (R := binary64 ℝ) hd _ (fun c hc => if_pos hc) _ (fun _ => ⟨h, h⟩)

end RoundChan

end
