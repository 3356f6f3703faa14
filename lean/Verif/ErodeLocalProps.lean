import Verif.ErodeLocalModel
import Verif.D8LocalProps

/-!
# The event-driven erosion component: queue of events and splash zone
-/

set_option autoImplicit false
set_option linter.unusedSectionVars false

namespace ErodeLocal
open D8Local (getNeighbors idOf Touch)

variable {K : Type*} [Field K] [LinearOrder K]

/-! ## The queue -/

theorem before_iff {p q : WithTop K × ℤ} :
    before p q = true ↔ p.1 < q.1 ∨ (p.1 = q.1 ∧ p.2 ≤ q.2) := by simp [before]

theorem before_refl (p : WithTop K × ℤ) : before p p = true := by simp [before]

theorem before_trans {p q r : WithTop K × ℤ} (h1 : before p q = true) (h2 : before q r = true) :
    before p r = true := by
  rw [before_iff] at *
  rcases h1 with h1 | ⟨e1, h1⟩ <;> rcases h2 with h2 | ⟨e2, h2⟩
  · exact Or.inl (h1.trans h2)
  · exact Or.inl (e2 ▸ h1)
  · exact Or.inl (e1 ▸ h2)
  · exact Or.inr ⟨e1.trans e2, h1.trans h2⟩

theorem before_total {p q : WithTop K × ℤ} (h : ¬ before p q = true) : before q p = true := by
  rw [before_iff] at *
  push Not at h
  obtain ⟨h1, h2⟩ := h
  rcases h1.lt_or_eq with h1 | h1
  · exact Or.inl h1
  · exact Or.inr ⟨h1, (h2 h1.symm).le⟩

theorem before_le {p q : WithTop K × ℤ} (h : before p q = true) : p.1 ≤ q.1 := by
  rw [before_iff] at h
  rcases h with h | h
  · exact h.le
  · exact h.1.le

theorem minPair_spec (l : List (WithTop K × ℤ)) : ∀ p : WithTop K × ℤ,
    minPair p l ∈ p :: l ∧ ∀ q ∈ p :: l, before (minPair p l) q = true := by
  induction l with
  | nil => intro p; simp [minPair, before_refl]
  | cons a l ih =>
    intro p
    unfold minPair
    by_cases h : before p a = true
    · rw [if_pos h]
      obtain ⟨h1, h2⟩ := ih p
      refine ⟨?_, ?_⟩
      · rcases List.mem_cons.mp h1 with h1 | h1
        · rw [h1]; simp
        · simp [h1]
      · intro q hq
        rcases List.mem_cons.mp hq with rfl | hq
        · exact h2 _ (by simp)
        · rcases List.mem_cons.mp hq with rfl | hq
          · exact before_trans (h2 p (by simp)) h
          · exact h2 q (by simp [hq])
    · rw [if_neg h]
      have h' := before_total h
      obtain ⟨h1, h2⟩ := ih a
      refine ⟨List.mem_cons_of_mem _ h1, ?_⟩
      intro q hq
      rcases List.mem_cons.mp hq with rfl | hq
      · exact before_trans (h2 a (by simp)) h'
      · exact h2 q hq

theorem heappop_spec {h h' : List (WithTop K × ℤ)} {p : WithTop K × ℤ}
    (he : heappop h = some (p, h')) : p ∈ h ∧ h' = h.erase p ∧ ∀ q ∈ h, before p q = true := by
  unfold heappop at he
  cases h with
  | nil => cases he
  | cons a l =>
    simp only [Option.some.injEq, Prod.mk.injEq] at he
    obtain ⟨rfl, rfl⟩ := he
    exact ⟨(minPair_spec l a).1, rfl, (minPair_spec l a).2⟩

/-- What `update_active_ID` takes: the earliest pair of the heap that has not been retracted; only
retracted pairs are dropped with it. -/
theorem nextEvent_spec (tNext : ℤ → WithTop K) : ∀ (n : ℕ) (h h' : List (WithTop K × ℤ))
    (p : WithTop K × ℤ), nextEvent tNext n h = .ok (p, h') →
    p ∈ h ∧ tNext p.2 ≤ p.1 ∧ (∀ q ∈ h', q ∈ h ∧ before p q = true) ∧
    (∀ q ∈ h, q = p ∨ q ∈ h' ∨ q.1 < tNext q.2) ∧ h'.length + 1 ≤ h.length ∧
    (∀ q ∈ h, q.1 < tNext q.2 ∨ before p q = true) ∧
    (∀ q, h'.count q ≤ h.count q) ∧ h'.count p + 1 ≤ h.count p := by
  intro n
  induction n with
  | zero => intro h h' p he; cases he
  | succ n ih =>
    intro h h' p he
    unfold nextEvent at he
    cases hp : heappop h with
    | none => rw [hp] at he; cases he
    | some x =>
      obtain ⟨q, h1⟩ := x
      rw [hp] at he
      dsimp only at he
      obtain ⟨hq, rfl, hmin⟩ := heappop_spec hp
      have hlen : (h.erase q).length + 1 = h.length := by
        rw [List.length_erase_of_mem hq]
        have := List.length_pos_of_mem hq
        omega
      have hpres : ∀ r ∈ h, r = q ∨ r ∈ h.erase q := by
        intro r hr
        by_cases e : r = q
        · exact Or.inl e
        · exact Or.inr ((List.mem_erase_of_ne e).mpr hr)
      by_cases hr : q.1 < tNext q.2
      · rw [if_pos hr] at he
        obtain ⟨a1, a2, a3, a4, a5, a6, a7, a8⟩ := ih _ _ _ he
        have hcnt : ∀ r, (h.erase q).count r ≤ h.count r := fun r =>
          (List.erase_sublist).count_le r
        refine ⟨List.mem_of_mem_erase a1, a2, fun r hr' => ⟨List.mem_of_mem_erase (a3 r hr').1,
          (a3 r hr').2⟩, ?_, by omega, ?_, fun r => (a7 r).trans (hcnt r), a8.trans (hcnt p)⟩
        · intro r hr'
          rcases hpres r hr' with rfl | hr'
          · exact Or.inr (Or.inr hr)
          · exact a4 r hr'
        · intro r hr'
          rcases hpres r hr' with rfl | hr'
          · exact Or.inl hr
          · exact a6 r hr'
      · rw [if_neg hr] at he
        injection he with he
        injection he with e1 e2
        subst e1 e2
        refine ⟨hq, not_lt.mp hr, fun r hr' => ⟨List.mem_of_mem_erase hr',
          hmin r (List.mem_of_mem_erase hr')⟩, ?_, by omega, fun r hr' => Or.inr (hmin r hr'),
          fun r => (List.erase_sublist).count_le r, ?_⟩
        · intro r hr'
          rcases hpres r hr' with h | h
          · exact Or.inl h
          · exact Or.inr (Or.inl h)
        · rw [List.count_erase_self]
          have := List.count_pos_iff.mpr hq
          omega

/-- It fails exactly when every pair of the heap has been retracted. -/
theorem nextEvent_error (tNext : ℤ → WithTop K) : ∀ (n : ℕ) (h : List (WithTop K × ℤ)),
    n = h.length → ((∃ m, nextEvent tNext n h = .error m) ↔ ∀ q ∈ h, q.1 < tNext q.2) := by
  intro n
  induction n with
  | zero =>
    intro h hn
    have : h = [] := List.length_eq_zero_iff.mp hn.symm
    subst this
    simp [nextEvent]
  | succ n ih =>
    intro h hn
    unfold nextEvent
    cases hp : heappop h with
    | none =>
      cases h with
      | nil => simp at hn
      | cons a l => simp [heappop] at hp
    | some x =>
      obtain ⟨q, h1⟩ := x
      dsimp only
      obtain ⟨hq, rfl, hmin⟩ := heappop_spec hp
      have hlen : (h.erase q).length = n := by
        rw [List.length_erase_of_mem hq]; omega
      by_cases hr : q.1 < tNext q.2
      · rw [if_pos hr, ih _ hlen.symm]
        constructor
        · intro H r hr'
          by_cases e : r = q
          · rw [e]; exact hr
          · exact H r ((List.mem_erase_of_ne e).mpr hr')
        · exact fun H r hr' => H r (List.mem_of_mem_erase hr')
      · rw [if_neg hr]
        constructor
        · rintro ⟨m, hm⟩; cases hm
        · exact fun H => absurd (H q hq) hr

/-! ## The splash zone -/

/-- Two different cells of the grid touch, at a side or a corner, without wrapping around. -/
def Adj (ny nx : ℕ) (i j : ℤ) : Prop :=
  ∃ r c r' c' : ℕ, r < ny ∧ c < nx ∧ r' < ny ∧ c' < nx ∧ i = idOf nx r c ∧ j = idOf nx r' c' ∧
    Touch r c r' c' ∧ i ≠ j

/-- A cell ID of the grid. -/
def InGrid (ny nx : ℕ) (i : ℤ) : Prop := 0 ≤ i ∧ i < (ny * nx : ℕ)

theorem Adj.symm {ny nx : ℕ} {i j : ℤ} (h : Adj ny nx i j) : Adj ny nx j i := by
  obtain ⟨r, c, r', c', h1, h2, h3, h4, h5, h6, h7, h8⟩ := h
  refine ⟨r', c', r, c, h3, h4, h1, h2, h6, h5, ?_, h8.symm⟩
  unfold Touch at *
  rw [abs_sub_comm, abs_sub_comm (c' : ℤ)]
  exact h7

theorem Adj.inGrid {ny nx : ℕ} {i j : ℤ} (h : Adj ny nx i j) : InGrid ny nx i := by
  obtain ⟨r, c, r', c', h1, h2, h3, h4, h5, h6, h7, h8⟩ := h
  rw [h5]
  exact D8Local.idOf_lt h1 h2

theorem mem_nbrs {ny nx : ℕ} {ids : List ℤ} (hids : ∀ i ∈ ids, InGrid ny nx i) {j : ℤ} :
    j ∈ getNeighbors ny nx ids false ↔ j ∉ ids ∧ ∃ i ∈ ids, Adj ny nx i j := by
  obtain ⟨h1, h2, -, -⟩ := D8Local.C166_neighbors hids
  rw [h2, h1]
  constructor
  · rintro ⟨⟨r, c, r', c', a1, a2, a3, a4, a5, a6, a7⟩, hj⟩
    refine ⟨hj, _, a6, ?_⟩
    refine Adj.symm ⟨r, c, r', c', a1, a2, a3, a4, a5, rfl, a7, ?_⟩
    rintro rfl
    exact hj a6
  · rintro ⟨hj, i, hi, hadj⟩
    obtain ⟨r, c, r', c', a1, a2, a3, a4, a5, a6, a7, a8⟩ := hadj.symm
    refine ⟨⟨r, c, r', c', a1, a2, a3, a4, a5, a6 ▸ hi, a7⟩, hj⟩

/-- The change of elevation of a cell since its last full update, if it is brought up to date now:
what has accumulated plus rate times elapsed time. -/
def drift (s : St K) (c : ℤ) : K := s.cap c + s.rate c * (s.clock - s.tLast c)

/-- A cell whose prediction turns out wrong when it is brought up to date: it has changed, and it is
an inner cell without a flow direction, or has changed by its target or more, or has changed in the
other direction (or there is no target). -/
def Due (P : Par K) (s : St K) (c : ℤ) : Prop :=
  drift s c ≠ 0 ∧
    ((s.code c = 0 ∧ notEdge P.ny P.nx c = true) ∨
     (match s.target c with
      | .fin y => |y| ≤ |drift s c| ∨ SignType.sign (drift s c) ≠ SignType.sign y
      | .inf neg => SignType.sign (drift s c) ≠ if neg then -1 else 1
      | .nan => True))

/-- The cells reached from the active cell through cells that are due. -/
inductive Reached (P : Par K) (s : St K) (id : ℤ) : ℤ → Prop
  | active : Reached P s id id
  | next {c d : ℤ} : Reached P s id c → Adj P.ny P.nx c d → d ≠ id → Due P s d → Reached P s id d

theorem isNow_iff (P : Par K) (s s0 : St K) (c : ℤ) (hc : s.cap c = drift s0 c)
    (hcode : s.code = s0.code) (ht : s.target = s0.target) : isNow P s c = true ↔ Due P s0 c := by
  unfold isNow Due
  rw [hc, hcode, ht]
  rw [Bool.and_eq_true, Bool.or_eq_true, Bool.or_eq_true, Bool.and_eq_true, decide_eq_true_eq,
    decide_eq_true_eq]
  cases s0.target c with
  | fin y => simp only [tooFar, wrongSign, decide_eq_true_eq]; tauto
  | inf neg => simp only [tooFar, wrongSign, decide_eq_true_eq, Bool.false_eq_true]; tauto
  | nan => simp only [tooFar, wrongSign, Bool.false_eq_true]; tauto

/-- The parts of the state that finding the splash zone leaves alone. -/
structure Frame (s0 s : St K) : Prop where
  rate : s.rate = s0.rate
  target : s.target = s0.target
  qs : s.qs = s0.qs
  code : s.code = s0.code
  parent : s.parent = s0.parent
  dt : s.dt = s0.dt
  tNext : s.tNext = s0.tNext
  heap : s.heap = s0.heap
  clock : s.clock = s0.clock
  time : s.time = s0.time
  timeIndex : s.timeIndex = s0.timeIndex
  active : s.active = s0.active
  last : s.last = s0.last
  activeCount : s.activeCount = s0.activeCount
  done : s.done = s0.done

/-- The state during the search, compared with the state `s0` before the active cell `id` was
brought up to date. -/
structure Search (P : Par K) (s0 : St K) (id : ℤ) (s : St K) : Prop where
  frame : Frame s0 s
  idNow : id ∈ s.now
  zoneNodup : s.zone.Nodup
  nowNodup : s.now.Nodup
  zoneGrid : ∀ c ∈ s.zone, InGrid P.ny P.nx c
  nowZone : ∀ c ∈ s.now, c ∈ s.zone
  len : s.zone.length ≤ P.cap
  inZone : ∀ c ∈ s.zone, s.dem c = s0.dem c + dz s0 c ∧ s.tLast c = s0.clock ∧
    s.count c = s0.count c + 1 ∧ (c ∈ s.now → s.cap c = 0) ∧ (c ∉ s.now → s.cap c = drift s0 c)
  outZone : ∀ c, c ∉ s.zone → s.dem c = s0.dem c ∧ s.tLast c = s0.tLast c ∧
    s.count c = s0.count c ∧ s.cap c = s0.cap c
  nowReached : ∀ c ∈ s.now, Reached P s0 id c
  zoneNow : ∀ c ∈ s.zone, c = id ∨ ∃ d ∈ s.now, Adj P.ny P.nx d c
  notDue : ∀ c ∈ s.zone, c ∉ s.now → ¬ Due P s0 c
  dzMax : ∃ l : List ℤ, (∀ c ∈ l, c ∈ s.zone) ∧ s.dzMax = (l.map (fun c => |dz s0 c|)).foldr max 0

/-- The state after the neighbours have been brought up to date. -/
def touched (s : St K) (nbr : List ℤ) : St K :=
  updateTLast (updateCap (updateDEM { s with zone := s.zone ++ nbr } nbr) nbr) nbr

theorem search_step {P : Par K} {s0 s : St K} {id : ℤ} {ids nbr : List ℤ} (h : Search P s0 id s)
    (hids : ∀ i ∈ ids, i ∈ s.now)
    (hn : nbr = (getNeighbors P.ny P.nx ids false).filter (fun i => i ∉ s.zone))
    (hlen : ¬ s.zone.length + nbr.length > P.cap) (now : List ℤ)
    (hnow : now = nbr.filter (isNow P (touched s nbr))) :
    Search P s0 id { touched s nbr with
        now := s.now ++ now
        cap := fun c => if c ∈ now then 0 else (touched s nbr).cap c } ∧
    (∀ d ∈ ids, ∀ c, Adj P.ny P.nx d c → c ∈ s.zone ++ nbr) ∧ (∀ c ∈ now, c ∈ nbr) := by
  have hgrid : ∀ i ∈ ids, InGrid P.ny P.nx i := fun i hi => h.zoneGrid _ (h.nowZone _ (hids i hi))
  have hmem : ∀ j, j ∈ nbr ↔ (j ∉ ids ∧ ∃ i ∈ ids, Adj P.ny P.nx i j) ∧ j ∉ s.zone := by
    intro j
    rw [hn, List.mem_filter, mem_nbrs hgrid]
    simp
  have hdisj : ∀ j ∈ nbr, j ∉ s.zone := fun j hj => ((hmem j).mp hj).2
  have hnod : nbr.Nodup := by
    rw [hn]
    exact (((D8Local.C166_neighbors hgrid).2.2.2).imp (fun h => h.ne)).filter _
  have hsub : ∀ c ∈ now, c ∈ nbr := by
    intro c hc
    rw [hnow] at hc
    exact (List.mem_filter.mp hc).1
  have hclk : s.clock = s0.clock := h.frame.clock
  have hrate : s.rate = s0.rate := h.frame.rate
  have hcap : ∀ c ∈ nbr, (touched s nbr).cap c = drift s0 c := by
    intro c hc
    obtain ⟨-, h2, -, h4⟩ := h.outZone c (hdisj c hc)
    simp only [touched, updateTLast, updateCap, updateDEM, dz, if_pos hc, drift]
    rw [h4, hrate, hclk, h2]
  have hdue : ∀ c ∈ nbr, (c ∈ now ↔ Due P s0 c) := by
    intro c hc
    rw [hnow, List.mem_filter]
    rw [← isNow_iff P (touched s nbr) s0 c (hcap c hc) h.frame.code h.frame.target]
    exact and_iff_right hc
  refine ⟨?_, ?_, hsub⟩
  · refine
      { frame := ?_, idNow := ?_, zoneNodup := ?_, nowNodup := ?_, zoneGrid := ?_, nowZone := ?_
        len := ?_, inZone := ?_, outZone := ?_, nowReached := ?_, zoneNow := ?_, notDue := ?_
        dzMax := ?_ }
    · have f := h.frame
      exact ⟨f.rate, f.target, f.qs, f.code, f.parent, f.dt, f.tNext, f.heap, f.clock, f.time,
        f.timeIndex, f.active, f.last, f.activeCount, f.done⟩
    · exact List.mem_append_left _ h.idNow
    · change (s.zone ++ nbr).Nodup
      rw [List.nodup_append]
      refine ⟨h.zoneNodup, hnod, ?_⟩
      rintro a ha b hb rfl
      exact hdisj a hb ha
    · change (s.now ++ now).Nodup
      rw [List.nodup_append]
      refine ⟨h.nowNodup, ?_, ?_⟩
      · rw [hnow]; exact hnod.filter _
      · rintro a ha b hb rfl
        exact hdisj a (hsub a hb) (h.nowZone a ha)
    · intro c hc
      rcases List.mem_append.mp hc with hc | hc
      · exact h.zoneGrid c hc
      · obtain ⟨⟨-, i, -, hadj⟩, -⟩ := (hmem c).mp hc
        exact hadj.symm.inGrid
    · intro c hc
      rcases List.mem_append.mp hc with hc | hc
      · exact List.mem_append_left _ (h.nowZone c hc)
      · exact List.mem_append_right _ (hsub c hc)
    · change (s.zone ++ nbr).length ≤ P.cap
      rw [List.length_append]; omega
    · intro c hc
      by_cases hc2 : c ∈ nbr
      · obtain ⟨h1, h2, h3, h4⟩ := h.outZone c (hdisj c hc2)
        refine ⟨?_, ?_, ?_, ?_, ?_⟩
        · simp only [touched, updateTLast, updateCap, updateDEM, dz, if_pos hc2]
          rw [h1, hrate, hclk, h2]
        · simp only [touched, updateTLast, updateCap, updateDEM, if_pos hc2]
          exact hclk
        · simp only [touched, updateTLast, updateCap, updateDEM, if_pos hc2]
          rw [h3]
        · intro hcn
          rcases List.mem_append.mp hcn with hcn | hcn
          · exact absurd (h.nowZone c hcn) (hdisj c hc2)
          · exact if_pos hcn
        · intro hcn
          have hcn' : c ∉ now := fun hx => hcn (List.mem_append_right _ hx)
          change (if c ∈ now then 0 else (touched s nbr).cap c) = _
          rw [if_neg hcn']
          exact hcap c hc2
      · have hz : c ∈ s.zone := (List.mem_append.mp hc).resolve_right hc2
        have hcn' : c ∉ now := fun hx => hc2 (hsub c hx)
        obtain ⟨h1, h2, h3, h4, h5⟩ := h.inZone c hz
        refine ⟨?_, ?_, ?_, ?_, ?_⟩
        · simp only [touched, updateTLast, updateCap, updateDEM, if_neg hc2]; exact h1
        · simp only [touched, updateTLast, updateCap, updateDEM, if_neg hc2]; exact h2
        · simp only [touched, updateTLast, updateCap, updateDEM, if_neg hc2]; exact h3
        · intro hcn
          have : c ∈ s.now := (List.mem_append.mp hcn).resolve_right hcn'
          simp only [touched, updateTLast, updateCap, updateDEM, if_neg hc2, if_neg hcn']
          exact h4 this
        · intro hcn
          have : c ∉ s.now := fun hx => hcn (List.mem_append_left _ hx)
          simp only [touched, updateTLast, updateCap, updateDEM, if_neg hc2, if_neg hcn']
          exact h5 this
    · intro c hc
      have hz : c ∉ s.zone := fun hx => hc (List.mem_append_left _ hx)
      have hc2 : c ∉ nbr := fun hx => hc (List.mem_append_right _ hx)
      have hcn' : c ∉ now := fun hx => hc2 (hsub c hx)
      simp only [touched, updateTLast, updateCap, updateDEM, if_neg hc2, if_neg hcn']
      exact h.outZone c hz
    · intro c hc
      rcases List.mem_append.mp hc with hc | hc
      · exact h.nowReached c hc
      · have hcn := hsub c hc
        obtain ⟨⟨-, i, hi, hadj⟩, hz⟩ := (hmem c).mp hcn
        refine .next (h.nowReached i (hids i hi)) hadj ?_ ((hdue c hcn).mp hc)
        rintro rfl
        exact hz (h.nowZone _ h.idNow)
    · intro c hc
      rcases List.mem_append.mp hc with hc | hc
      · rcases h.zoneNow c hc with e | ⟨d, hd, hadj⟩
        · exact Or.inl e
        · exact Or.inr ⟨d, List.mem_append_left _ hd, hadj⟩
      · obtain ⟨⟨-, i, hi, hadj⟩, -⟩ := (hmem c).mp hc
        exact Or.inr ⟨i, List.mem_append_left _ (hids i hi), hadj⟩
    · intro c hc hcn
      rcases List.mem_append.mp hc with hc | hc
      · exact h.notDue c hc (fun hx => hcn (List.mem_append_left _ hx))
      · rw [← hdue c hc]
        exact fun hx => hcn (List.mem_append_right _ hx)
    · refine ⟨nbr, fun c hc => List.mem_append_right _ hc, ?_⟩
      simp only [touched, updateTLast, updateCap, updateDEM]
      congr 1
      apply List.map_congr_left
      intro c hc
      simp only [dz]
      rw [hrate, hclk, (h.outZone c (hdisj c hc)).2.1]
  · intro d hd c hadj
    by_cases hz : c ∈ s.zone
    · exact List.mem_append_left _ hz
    · refine List.mem_append_right _ ((hmem c).mpr ⟨⟨?_, d, hd, hadj⟩, hz⟩)
      intro hc
      exact hz (h.nowZone c (hids c hc))

/-- What the search for the splash zone ends with. -/
structure Found (P : Par K) (s0 : St K) (id : ℤ) (s : St K) : Prop where
  search : Search P s0 id s
  closed : ∀ d ∈ s.now, ∀ c, Adj P.ny P.nx d c → c ∈ s.zone

theorem touched_nil_now (s : St K) (nbr : List ℤ) :
    ({ touched s nbr with
        now := s.now ++ []
        cap := fun c => if c ∈ ([] : List ℤ) then 0 else (touched s nbr).cap c } : St K) =
      touched s nbr := by
  have : (fun c => if c ∈ ([] : List ℤ) then 0 else (touched s nbr).cap c) = (touched s nbr).cap := by
    funext c; simp
  rw [this, List.append_nil]
  rfl

theorem splash_succ (P : Par K) (n : ℕ) (ids : List ℤ) (s : St K) (nbr now : List ℤ)
    (hn : nbr = (getNeighbors P.ny P.nx ids false).filter (fun i => i ∉ s.zone))
    (hnow : now = nbr.filter (isNow P (touched s nbr))) :
    splash P (n + 1) ids s =
      if nbr = [] then some (.ok s)
      else if s.zone.length + nbr.length > P.cap then
        some (.error "SystemExit: Splash zone exceeded max size")
      else if now = [] then some (.ok (touched s nbr))
      else if s.now.length + now.length > P.cap then
        some (.error "SystemExit: all_now_IDs exceeded max size")
      else splash P n now { touched s nbr with
        now := s.now ++ now
        cap := fun c => if c ∈ now then 0 else (touched s nbr).cap c } := by
  subst hnow hn
  rfl

theorem splash_found {P : Par K} {s0 : St K} {id : ℤ} : ∀ (fuel : ℕ) (ids : List ℤ) (s s' : St K),
    Search P s0 id s → (∀ i ∈ ids, i ∈ s.now) →
    (∀ d ∈ s.now, d ∉ ids → ∀ c, Adj P.ny P.nx d c → c ∈ s.zone) →
    splash P fuel ids s = some (.ok s') → Found P s0 id s' := by
  intro fuel
  induction fuel with
  | zero => intro ids s s' _ _ _ he; cases he
  | succ n ih =>
    intro ids s s' h hids hcl he
    obtain ⟨nbr, hn⟩ : ∃ nbr, nbr = (getNeighbors P.ny P.nx ids false).filter (fun i => i ∉ s.zone) :=
      ⟨_, rfl⟩
    obtain ⟨now, hnow⟩ : ∃ now, now = nbr.filter (isNow P (touched s nbr)) := ⟨_, rfl⟩
    rw [splash_succ P n ids s nbr now hn hnow] at he
    have hgrid : ∀ i ∈ ids, InGrid P.ny P.nx i :=
      fun i hi => h.zoneGrid _ (h.nowZone _ (hids i hi))
    by_cases h1 : nbr = []
    · rw [if_pos h1] at he
      injection he with he
      injection he with he
      subst he
      refine ⟨h, ?_⟩
      intro d hd c hadj
      by_cases hdi : d ∈ ids
      · by_contra hz
        have : c ∈ nbr := by
          rw [hn, List.mem_filter, mem_nbrs hgrid]
          refine ⟨⟨fun hc => hz (h.nowZone c (hids c hc)), d, hdi, hadj⟩, by simpa using hz⟩
        rw [h1] at this
        cases this
      · exact hcl d hd hdi c hadj
    · rw [if_neg h1] at he
      by_cases h2 : s.zone.length + nbr.length > P.cap
      · rw [if_pos h2] at he; cases he
      · rw [if_neg h2] at he
        obtain ⟨hs, hc1, hc2⟩ := search_step h hids hn h2 now hnow
        by_cases h3 : now = []
        · rw [if_pos h3] at he
          injection he with he
          injection he with he
          rw [h3, touched_nil_now] at hs
          subst he
          refine ⟨hs, ?_⟩
          intro d hd c hadj
          by_cases hdi : d ∈ ids
          · exact hc1 d hdi c hadj
          · exact List.mem_append_left _ (hcl d hd hdi c hadj)
        · rw [if_neg h3] at he
          by_cases h4 : s.now.length + now.length > P.cap
          · rw [if_pos h4] at he; cases he
          · rw [if_neg h4] at he
            refine ih _ _ _ hs ?_ ?_ he
            · intro i hi; exact List.mem_append_right _ hi
            · intro d hd hdn c hadj
              have hd' : d ∈ s.now := (List.mem_append.mp hd).resolve_right hdn
              by_cases hdi : d ∈ ids
              · exact hc1 d hdi c hadj
              · exact List.mem_append_left _ (hcl d hd' hdi c hadj)

theorem search_activate (P : Par K) (s0 : St K) (id : ℤ) (hid : InGrid P.ny P.nx id)
    (hcap : 1 ≤ P.cap) : Search P s0 id (activate id s0) := by
  refine
    { frame := ⟨rfl, rfl, rfl, rfl, rfl, rfl, rfl, rfl, rfl, rfl, rfl, rfl, rfl, rfl, rfl⟩
      idNow := by simp [activate]
      zoneNodup := by simp [activate]
      nowNodup := by simp [activate]
      zoneGrid := by simpa [activate] using hid
      nowZone := by simp [activate]
      len := by simpa [activate] using hcap
      inZone := ?_, outZone := ?_, nowReached := ?_, zoneNow := ?_, notDue := ?_
      dzMax := ⟨[id], by simp [activate], rfl⟩ }
  · intro c hc
    have : c = id := by simpa [activate] using hc
    subst this
    simp [activate, updateTLast, updateDEM, dz]
  · intro c hc
    have : c ≠ id := by simpa [activate] using hc
    simp [activate, updateTLast, updateDEM, this]
  · intro c hc
    have : c = id := by simpa [activate] using hc
    subst this
    exact .active
  · intro c hc
    have : c = id := by simpa [activate] using hc
    exact Or.inl this
  · intro c hc hcn
    exact absurd (by simpa [activate] using hc) (by simpa [activate] using hcn)

/-- The search never goes deeper than the arrays are long. -/
theorem splash_isSome (P : Par K) : ∀ (fuel : ℕ) (ids : List ℤ) (s : St K),
    s.zone.length ≤ P.cap → P.cap < fuel + s.zone.length → (splash P fuel ids s).isSome := by
  intro fuel
  induction fuel with
  | zero => intro ids s h1 h2; omega
  | succ n ih =>
    intro ids s h1 h2
    unfold splash
    dsimp only
    split
    · rfl
    · rename_i hne
      split
      · rfl
      · split
        · rfl
        · split
          · rfl
          · apply ih
            · simp only [updateTLast, updateCap, updateDEM, List.length_append]; omega
            · have := List.length_pos_iff.mpr hne
              simp only [updateTLast, updateCap, updateDEM, List.length_append]; omega

end ErodeLocal
