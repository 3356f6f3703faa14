import Verif.FillModel
import Verif.FillSpec
import Mathlib.Tactic.Linarith
import Mathlib.Tactic.Ring
import Mathlib.Data.Finset.Card
import Mathlib.Data.List.Nodup

/-! Helper lemmas for depression filling. -/

set_option linter.unusedSectionVars false

namespace Fill
open FillSpec

section
variable {K : Type*} [LinearOrder K]

theorem pairLt_false {a b : K × ℕ} (h : pairLt a b = false) : b.1 ≤ a.1 := by
  simp only [pairLt, decide_eq_false_iff_not, not_or, not_lt] at h
  exact h.1

theorem pairLt_true {a b : K × ℕ} (h : pairLt a b = true) : a.1 ≤ b.1 := by
  simp only [pairLt, decide_eq_true_eq] at h
  rcases h with h | h
  · exact h.le
  · exact h.1.le

theorem minPair_spec (a : K × ℕ) (l : List (K × ℕ)) :
    minPair a l ∈ a :: l ∧ ∀ p ∈ a :: l, (minPair a l).1 ≤ p.1 := by
  induction l generalizing a with
  | nil => simp [minPair]
  | cons b l ih =>
    have h : minPair a (b :: l) = minPair (if pairLt b a then b else a) l := rfl
    rw [h]
    cases hb : pairLt b a
    · obtain ⟨h1, h2⟩ := ih a
      simp only [Bool.false_eq_true, if_false]
      refine ⟨?_, ?_⟩
      · rcases List.mem_cons.1 h1 with h | h
        · rw [h]; simp
        · simp [h]
      · intro p hp
        simp only [List.mem_cons] at hp
        rcases hp with rfl | rfl | hp
        · exact h2 _ (by simp)
        · exact (h2 a (by simp)).trans (pairLt_false hb)
        · exact h2 _ (by simp [hp])
    · obtain ⟨h1, h2⟩ := ih b
      simp only [if_true]
      refine ⟨List.mem_cons_of_mem _ h1, ?_⟩
      intro p hp
      simp only [List.mem_cons] at hp
      rcases hp with rfl | rfl | hp
      · exact (h2 b (by simp)).trans (pairLt_true hb)
      · exact h2 _ (by simp)
      · exact h2 _ (by simp [hp])

theorem popMin_none {h : List (K × ℕ)} : popMin h = none ↔ h = [] := by
  cases h <;> simp [popMin]

theorem popMin_some {h rest : List (K × ℕ)} {p : K × ℕ} (hp : popMin h = some (p, rest)) :
    p ∈ h ∧ (∀ q ∈ h, p.1 ≤ q.1) ∧ rest = h.erase p := by
  cases h with
  | nil => simp [popMin] at hp
  | cons a l =>
    simp only [popMin, Option.some.injEq, Prod.mk.injEq] at hp
    obtain ⟨h1, h2⟩ := hp
    obtain ⟨h3, h4⟩ := minPair_spec a l
    rw [h1] at h2 h3 h4
    exact ⟨h3, h4, h2.symm⟩

/-! ### the neighbour loop -/

theorem fold_spec (zmin : K) (ids : List ℕ) : ∀ s : St K,
    (∀ u, (ids.foldl (processNbr zmin) s).dem u =
      if u ∈ ids then max (s.dem u) zmin else s.dem u) ∧
    (∀ u, (ids.foldl (processNbr zmin) s).st u = if u ∈ ids then .onHeap else s.st u) ∧
    (∀ p, p ∈ (ids.foldl (processNbr zmin) s).heap ↔
      p ∈ s.heap ∨ (p.2 ∈ ids ∧ p.1 = max (s.dem p.2) zmin)) ∧
    (ids.foldl (processNbr zmin) s).heap.length = s.heap.length + ids.length ∧
    (ids.foldl (processNbr zmin) s).nClosed = s.nClosed := by
  induction ids with
  | nil => intro s; simp
  | cons v ids ih =>
    intro s
    have hdem : ∀ u, (processNbr zmin s v).dem u = if u = v then max (s.dem v) zmin else s.dem u := by
      intro u
      simp only [processNbr]
      by_cases hlt : s.dem v < zmin
      · simp only [hlt, if_true, Function.update_apply, max_eq_right hlt.le]
      · simp only [hlt, if_false, max_eq_left (not_lt.1 hlt)]
        split_ifs with h
        · rw [h]
        · rfl
    have hst : ∀ u, (processNbr zmin s v).st u = if u = v then .onHeap else s.st u := by
      intro u; simp only [processNbr, Function.update_apply]
    have hheap : (processNbr zmin s v).heap = (max (s.dem v) zmin, v) :: s.heap := by
      have := hdem v
      simp only [if_true] at this
      rw [← this]; rfl
    obtain ⟨h1, h2, h3, h4, h5⟩ := ih (processNbr zmin s v)
    simp only [List.foldl_cons]
    refine ⟨?_, ?_, ?_, ?_, ?_⟩
    · intro u
      rw [h1, hdem]
      by_cases huv : u = v
      · subst huv
        simp only [if_true, List.mem_cons, true_or]
        split_ifs <;> simp
      · simp [huv]
    · intro u
      rw [h2, hst]
      by_cases huv : u = v
      · subst huv; simp
      · simp [huv]
    · intro p
      rw [h3, hheap, hdem]
      by_cases huv : p.2 = v
      · simp only [huv, List.mem_cons, if_true, true_or, true_and]
        constructor
        · rintro ((h | h) | ⟨_, h⟩)
          · right; rw [h]
          · exact Or.inl h
          · right; rw [h]; simp
        · rintro (h | h)
          · exact Or.inl (Or.inr h)
          · left; left
            exact Prod.ext h huv
      · simp only [huv, if_false, List.mem_cons, false_or]
        constructor
        · rintro ((h | h) | h)
          · exact absurd (by rw [h]) huv
          · exact Or.inl h
          · exact Or.inr h
        · rintro (h | h)
          · exact Or.inl (Or.inr h)
          · exact Or.inr h
    · rw [h4, hheap]; simp; omega
    · rw [h5]; rfl

variable (nbrs : ℕ → List ℕ) (z0 : ℕ → K) (start marked : List ℕ)

/-- adjacency, admissibility and outlets seen by the algorithm -/
abbrev R : ℕ → K → Prop := Spills (fun u v => v ∈ nbrs u) (fun v => v ∉ marked) (fun v => v ∈ start) z0

theorem Spills.mono {adj : ℕ → ℕ → Prop} {ok outlet : ℕ → Prop} {z : ℕ → K} {v : ℕ} {h h' : K}
    (hs : Spills adj ok outlet z v h) (hh : h ≤ h') : Spills adj ok outlet z v h' := by
  induction hs with
  | outlet hs hz => exact .outlet hs (hz.trans hh)
  | step _ ha hok hz ih => exact .step (ih hh) ha hok (hz.trans hh)

theorem Spills.le {adj : ℕ → ℕ → Prop} {ok outlet : ℕ → Prop} {z : ℕ → K} {v : ℕ} {h : K}
    (hs : Spills adj ok outlet z v h) : z v ≤ h := by
  cases hs <;> assumption

/-- a cell that has been put on the heap at some time -/
def Touched (s : St K) (v : ℕ) : Prop := s.st v ≠ .opened ∧ (v ∈ start ∨ v ∉ marked)

/-- descending path through touched cells -/
inductive TDesc (s : St K) : ℕ → Prop
  | outlet {v : ℕ} (hs : v ∈ start) : TDesc s v
  | step {u v : ℕ} (hu : TDesc s u) (ha : v ∈ nbrs u) (hok : v ∉ marked)
      (ht : s.st v ≠ .opened) (hz : s.dem u ≤ s.dem v) : TDesc s v

structure Inv (s : St K) : Prop where
  heap_dem : ∀ p ∈ s.heap, p.1 = s.dem p.2 ∧ Touched start marked s p.2
  onheap : ∀ v, s.st v = .onHeap → (∃ p ∈ s.heap, p.2 = v) ∧ (v ∈ start ∨ v ∉ marked)
  closed : ∀ v, s.st v = .closed → (v ∈ start ∨ v ∉ marked) → ∀ u ∈ nbrs v, s.st u ≠ .opened
  untouched : ∀ v, ¬ Touched start marked s v → s.dem v = z0 v
  reach : ∀ v, Touched start marked s v → R nbrs z0 start marked v (s.dem v)
  least : ∀ v, Touched start marked s v → ∀ h, R nbrs z0 start marked v h → s.dem v ≤ h
  start_t : ∀ v ∈ start, s.st v ≠ .opened
  open_ok : ∀ v, s.st v = .opened → v ∉ marked
  desc : ∀ v, Touched start marked s v → TDesc nbrs start marked s v

theorem Inv.init (n : ℕ) : Inv nbrs z0 start marked (initSt z0 marked n start) := by
  have hst : ∀ v, Touched start marked (initSt z0 marked n start) v ↔ v ∈ start := by
    intro v
    unfold Touched initSt
    simp only
    constructor
    · rintro ⟨h1, h2⟩
      by_contra h
      rcases h2 with h2 | h2
      · exact h h2
      · simp [h, h2] at h1
    · intro h; simp [h]
  refine ⟨?_, ?_, ?_, ?_, ?_, ?_, ?_, ?_, ?_⟩
  · intro p hp
    simp only [initSt, List.mem_map] at hp
    obtain ⟨v, hv, rfl⟩ := hp
    exact ⟨rfl, (hst v).2 hv⟩
  · intro v hv
    have : v ∈ start := by
      by_contra h
      simp only [initSt, h, if_false] at hv
      split_ifs at hv
    exact ⟨⟨(z0 v, v), by simp only [initSt, List.mem_map]; exact ⟨v, this, rfl⟩, rfl⟩, Or.inl this⟩
  · intro v hv h2
    exfalso
    have : v ∉ start := by intro h; simp [initSt, h] at hv
    rcases h2 with h2 | h2
    · exact this h2
    · simp [initSt, this, h2] at hv
  · intro v _; rfl
  · intro v hv; exact .outlet ((hst v).1 hv) le_rfl
  · intro v hv h hr; exact Spills.le hr
  · intro v hv; simp [initSt, hv]
  · intro v hv h
    simp only [initSt, h, if_true] at hv
    split_ifs at hv
  · intro v hv; exact .outlet ((hst v).1 hv)

variable {nbrs z0 start marked}

/-- on a path below level `h` to an unvisited cell there is a cell on the heap -/
theorem Inv.crossing {s : St K} (hI : Inv nbrs z0 start marked s) {v : ℕ} {h : K}
    (hr : R nbrs z0 start marked v h) (ho : s.st v = .opened) :
    ∃ a, s.st a = .onHeap ∧ R nbrs z0 start marked a h := by
  induction hr with
  | outlet hs hz => exact absurd ho (hI.start_t _ hs)
  | step hu ha hok hz ih =>
    rename_i u v h
    by_cases hou : s.st u = .opened
    · exact ih hou
    · have hok' : u ∈ start ∨ u ∉ marked := by
        cases hu with
        | outlet hs _ => exact Or.inl hs
        | step _ _ h _ => exact Or.inr h
      cases hst : s.st u with
      | opened => exact absurd hst hou
      | closed => exact absurd ho (hI.closed u hst hok' v ha)
      | onHeap => exact ⟨u, hst, hu⟩

theorem TDesc.mono {s s' : St K} (h : ∀ v, s.st v ≠ .opened → s'.st v ≠ .opened ∧ s'.dem v = s.dem v)
    (hstart : ∀ v ∈ start, s.st v ≠ .opened) {v : ℕ} (hd : TDesc nbrs start marked s v) :
    TDesc nbrs start marked s' v := by
  have hopen : ∀ v, TDesc nbrs start marked s v → s.st v ≠ .opened := by
    intro v hv
    cases hv with
    | outlet hs => exact hstart _ hs
    | step _ _ _ ht _ => exact ht
  induction hd with
  | outlet hs => exact .outlet hs
  | step hu ha hok ht hz ih =>
    refine .step ih ha hok (h _ ht).1 ?_
    rw [(h _ ht).2, (h _ (hopen _ hu)).2]
    exact hz

theorem visit_eq (nbrs : ℕ → List ℕ) (zmin : K) (v : ℕ) (s : St K) :
    ∃ ids, ids = (nbrs v).filter (fun u => decide (u ≠ v ∧ s.st u = .opened)) ∧
    (∀ u, (visit nbrs zmin v s).dem u = if u ∈ ids then max (s.dem u) zmin else s.dem u) ∧
    (∀ u, (visit nbrs zmin v s).st u =
      if u ∈ ids then .onHeap else if u = v then .closed else s.st u) ∧
    (∀ p, p ∈ (visit nbrs zmin v s).heap ↔
      p ∈ s.heap ∨ (p.2 ∈ ids ∧ p.1 = max (s.dem p.2) zmin)) ∧
    (visit nbrs zmin v s).heap.length = s.heap.length + ids.length ∧
    (visit nbrs zmin v s).nClosed = s.nClosed + 1 := by
  refine ⟨_, rfl, ?_⟩
  have h : (nbrs v).filter (fun u => decide (u ≠ v ∧ s.st u = .opened)) =
      (nbrs v).filter (fun u => decide (Function.update s.st v .closed u = .opened)) := by
    congr 1
    funext u
    by_cases huv : u = v
    · subst huv; simp
    · simp [huv]
  rw [h]
  have := fold_spec zmin ((nbrs v).filter (fun u => decide (Function.update s.st v .closed u = .opened)))
    { s with st := Function.update s.st v .closed, nClosed := s.nClosed + 1 }
  simp only [Function.update_apply] at this
  obtain ⟨h1, h2, h3, h4, h5⟩ := this
  refine ⟨?_, ?_, ?_, ?_, ?_⟩
  · intro u; have := h1 u; simpa [visit, Function.update_apply] using this
  · intro u; have := h2 u; simpa [visit, Function.update_apply] using this
  · intro p; have := h3 p; simpa [visit, Function.update_apply] using this
  · simpa [visit, Function.update_apply] using h4
  · simpa [visit, Function.update_apply] using h5

theorem Inv.visit {s : St K} (hI : Inv nbrs z0 start marked s) {zmin : K} {v : ℕ}
    {rest : List (K × ℕ)} (hmem : (zmin, v) ∈ s.heap) (hmin : ∀ q ∈ s.heap, zmin ≤ q.1)
    (hrest : rest = s.heap.erase (zmin, v)) :
    Inv nbrs z0 start marked (visit nbrs zmin v { s with heap := rest }) := by
  obtain ⟨ids, hids, hdem, hst, hheap, -, -⟩ := visit_eq nbrs zmin v { s with heap := rest }
  simp only at hids hdem hst hheap
  generalize Fill.visit nbrs zmin v { s with heap := rest } = s' at hdem hst hheap
  have hmids : ∀ u, u ∈ ids ↔ u ∈ nbrs v ∧ u ≠ v ∧ s.st u = .opened := by
    intro u; rw [hids]; simp
  obtain ⟨hzv, hvt⟩ := hI.heap_dem _ hmem
  simp only at hzv hvt
  have hids_open : ∀ u ∈ ids, s.st u = .opened := fun u hu => ((hmids u).1 hu).2.2
  have hids_ok : ∀ u ∈ ids, u ∉ marked := fun u hu => hI.open_ok u (hids_open u hu)
  have hids_nt : ∀ u ∈ ids, ¬ Touched start marked s u := fun u hu h => h.1 (hids_open u hu)
  -- touched cells keep their elevation and stay touched
  have hkeep : ∀ u, s.st u ≠ .opened → s'.st u ≠ .opened ∧ s'.dem u = s.dem u := by
    intro u hu
    have hni : u ∉ ids := fun h => hu (hids_open u h)
    refine ⟨?_, by rw [hdem]; simp [hni]⟩
    rw [hst]; simp only [hni, if_false]
    split_ifs
    · simp
    · exact hu
  have ht' : ∀ u, Touched start marked s' u → u ∈ ids ∨ Touched start marked s u := by
    intro u hu
    by_cases h : u ∈ ids
    · exact Or.inl h
    · right
      refine ⟨?_, hu.2⟩
      have := hu.1
      rw [hst] at this
      simp only [h, if_false] at this
      split_ifs at this with h2
      · rw [h2]; exact hvt.1
      · exact this
  have htk : ∀ u, Touched start marked s u → Touched start marked s' u ∧ s'.dem u = s.dem u :=
    fun u hu => ⟨⟨(hkeep u hu.1).1, hu.2⟩, (hkeep u hu.1).2⟩
  have hdem_ids : ∀ u ∈ ids, s'.dem u = max (z0 u) zmin := by
    intro u hu
    rw [hdem, if_pos hu, hI.untouched u (hids_nt u hu)]
  have hids_t : ∀ u ∈ ids, s'.st u ≠ .opened := by
    intro u hu; rw [hst, if_pos hu]; simp
  refine ⟨?_, ?_, ?_, ?_, ?_, ?_, ?_, ?_, ?_⟩
  · -- heap_dem
    intro p hp
    rcases (hheap p).1 hp with h | ⟨h1, h2⟩
    · have hp' : p ∈ s.heap := by rw [hrest] at h; exact List.mem_of_mem_erase h
      obtain ⟨h3, h4⟩ := hI.heap_dem p hp'
      obtain ⟨h5, h6⟩ := htk _ h4
      exact ⟨by rw [h6]; exact h3, h5⟩
    · refine ⟨?_, hids_t _ h1, Or.inr (hids_ok _ h1)⟩
      rw [hdem, if_pos h1, h2]
  · -- onheap
    intro u hu
    by_cases h : u ∈ ids
    · exact ⟨⟨(max (s.dem u) zmin, u), (hheap _).2 (Or.inr ⟨h, rfl⟩), rfl⟩, Or.inr (hids_ok u h)⟩
    · rw [hst] at hu
      simp only [h, if_false] at hu
      split_ifs at hu with huv
      obtain ⟨⟨p, hp, hpu⟩, h2⟩ := hI.onheap u hu
      refine ⟨⟨p, (hheap p).2 (Or.inl ?_), hpu⟩, h2⟩
      rw [hrest]
      refine (List.mem_erase_of_ne ?_).2 hp
      intro h; rw [h] at hpu; exact huv hpu.symm
  · -- closed
    intro u hu hok w hw
    have hni : u ∉ ids := by intro h; rw [hst, if_pos h] at hu; cases hu
    rw [hst] at hu
    simp only [hni, if_false] at hu
    by_cases hwi : w ∈ ids
    · exact hids_t w hwi
    rw [hst]; simp only [hwi, if_false]
    by_cases hwv : w = v
    · simp [hwv]
    simp only [hwv, if_false]
    by_cases huv : u = v
    · subst huv
      intro hwo
      exact hwi ((hmids w).2 ⟨hw, hwv, hwo⟩)
    · simp only [huv, if_false] at hu
      exact hI.closed u hu hok w hw
  · -- untouched
    intro u hu
    have hni : u ∉ ids := fun h => hu ⟨hids_t u h, Or.inr (hids_ok u h)⟩
    rw [hdem, if_neg hni]
    exact hI.untouched u (fun h => hu (htk u h).1)
  · -- reach
    intro u hu
    rcases ht' u hu with h | h
    · rw [hdem_ids u h]
      have hv := hI.reach v hvt
      rw [← hzv] at hv
      exact .step (Spills.mono hv (le_max_right _ _)) ((hmids u).1 h).1 (hids_ok u h) (le_max_left _ _)
    · rw [(htk u h).2]; exact hI.reach u h
  · -- least
    intro u hu h hr
    rcases ht' u hu with hi | ht
    · rw [hdem_ids u hi]
      refine max_le (Spills.le hr) ?_
      obtain ⟨a, ha, hra⟩ := hI.crossing hr (hids_open u hi)
      obtain ⟨⟨p, hp, hpa⟩, hok⟩ := hI.onheap a ha
      have h1 := hI.heap_dem p hp
      rw [hpa] at h1
      calc zmin ≤ p.1 := hmin p hp
        _ = s.dem a := h1.1
        _ ≤ h := hI.least a h1.2 h hra
    · rw [(htk u ht).2]; exact hI.least u ht h hr
  · -- start_t
    intro u hu; exact (hkeep u (hI.start_t u hu)).1
  · -- open_ok
    intro u hu
    by_cases hs : s.st u = .opened
    · exact hI.open_ok u hs
    · exact absurd hu (hkeep u hs).1
  · -- desc
    intro u hu
    rcases ht' u hu with hi | ht
    · have hv := TDesc.mono hkeep hI.start_t (hI.desc v hvt)
      refine .step hv ((hmids u).1 hi).1 (hids_ok u hi) (hids_t u hi) ?_
      rw [hdem_ids u hi, (hkeep v hvt.1).2, ← hzv]
      exact le_max_right _ _
    · exact TDesc.mono hkeep hI.start_t (hI.desc u ht)

theorem loop_inv : ∀ (fuel : ℕ) (s s' : St K), Inv nbrs z0 start marked s →
    loop nbrs fuel s = some s' → Inv nbrs z0 start marked s' ∧ s'.heap = [] := by
  intro fuel
  induction fuel with
  | zero =>
    intro s s' hI h
    unfold loop at h
    cases hp : popMin s.heap with
    | none => rw [hp] at h; cases h; exact ⟨hI, popMin_none.1 hp⟩
    | some q => rw [hp] at h; simp at h
  | succ fuel ih =>
    intro s s' hI h
    unfold loop at h
    cases hp : popMin s.heap with
    | none => rw [hp] at h; cases h; exact ⟨hI, popMin_none.1 hp⟩
    | some q =>
      obtain ⟨⟨zmin, v⟩, rest⟩ := q
      rw [hp] at h
      obtain ⟨h1, h2, h3⟩ := popMin_some hp
      exact ih _ _ (hI.visit h1 h2 h3) h

/-- what the empty heap means -/
theorem Inv.final {s : St K} (hI : Inv nbrs z0 start marked s) (he : s.heap = []) {v : ℕ} {h : K}
    (hr : R nbrs z0 start marked v h) : Touched start marked s v := by
  induction hr with
  | outlet hs _ => exact ⟨hI.start_t _ hs, Or.inl hs⟩
  | step hu ha hok hz ih =>
    rename_i u v h
    refine ⟨?_, Or.inr hok⟩
    cases hst : s.st u with
    | opened => exact absurd hst ih.1
    | closed => exact hI.closed u hst ih.2 v ha
    | onHeap =>
      obtain ⟨⟨p, hp, _⟩, _⟩ := hI.onheap u hst
      rw [he] at hp; cases hp

/-! ### counting -/

/-- cells not yet reached -/
def nOpen (n : ℕ) (s : St K) : ℕ := ((Finset.range n).filter (fun v => s.st v = .opened)).card

theorem nOpen_visit (n : ℕ) (hn : ∀ u, ∀ w ∈ nbrs u, w < n) {zmin : K} {v : ℕ} {s : St K}
    (hv : s.st v ≠ .opened) {ids : List ℕ}
    (hids : ids = (nbrs v).filter (fun u => decide (u ≠ v ∧ s.st u = .opened)))
    (hst : ∀ u, (Fill.visit nbrs zmin v s).st u =
      if u ∈ ids then .onHeap else if u = v then .closed else s.st u) :
    nOpen n (Fill.visit nbrs zmin v s) + ids.toFinset.card = nOpen n s := by
  unfold nOpen
  rw [← Finset.card_union_of_disjoint]
  · congr 1
    ext u
    simp only [Finset.mem_union, Finset.mem_filter, Finset.mem_range, List.mem_toFinset, hst]
    have hmids : u ∈ ids ↔ u ∈ nbrs v ∧ u ≠ v ∧ s.st u = .opened := by rw [hids]; simp
    by_cases hu : u ∈ ids
    · have := hmids.1 hu
      simp [hu, hn v u this.1, this.2.2]
    · simp only [hu, if_false, or_false]
      by_cases huv : u = v
      · subst huv; simp [hv]
      · simp [huv]
  · rw [Finset.disjoint_left]
    intro u h1 h2
    simp only [Finset.mem_filter, hst] at h1
    rw [List.mem_toFinset] at h2
    simp [h2] at h1

theorem loop_isSome (n B : ℕ) (hn : ∀ u, ∀ w ∈ nbrs u, w < n) (hB : ∀ u, (nbrs u).length ≤ B) :
    ∀ (fuel : ℕ) (s : St K), Inv nbrs z0 start marked s →
    s.heap.length + B * nOpen n s ≤ fuel → ∃ s', loop nbrs fuel s = some s' := by
  intro fuel
  induction fuel with
  | zero =>
    intro s hI h
    have : s.heap = [] := List.length_eq_zero_iff.1 (by omega)
    refine ⟨s, ?_⟩
    unfold loop
    rw [popMin_none.2 this]
  | succ fuel ih =>
    intro s hI h
    unfold loop
    cases hp : popMin s.heap with
    | none => exact ⟨_, rfl⟩
    | some q =>
      obtain ⟨⟨zmin, v⟩, rest⟩ := q
      obtain ⟨h1, h2, h3⟩ := popMin_some hp
      refine ih _ (hI.visit h1 h2 h3) ?_
      obtain ⟨ids, hids, -, hst, -, hlen, -⟩ := visit_eq nbrs zmin v { s with heap := rest }
      have hv : s.st v ≠ .opened := (hI.heap_dem _ h1).2.1
      have ho := nOpen_visit n hn (zmin := zmin) (s := { s with heap := rest }) hv hids hst
      have ho' : nOpen n { s with heap := rest } = nOpen n s := rfl
      rw [ho'] at ho
      simp only at hlen
      rw [hlen]
      have hr : rest.length + 1 = s.heap.length := by
        rw [h3, List.length_erase_of_mem h1]
        have := List.length_pos_of_mem h1
        omega
      have hl : ids.length ≤ B * ids.toFinset.card := by
        rcases ids with _ | ⟨a, t⟩
        · simp
        · have h4 : (a :: t).length ≤ B := by
            rw [hids]; exact (List.length_filter_le _ _).trans (hB v)
          have h5 : 1 ≤ (a :: t).toFinset.card :=
            Finset.card_pos.2 ⟨a, by simp⟩
          calc (a :: t).length ≤ B * 1 := by omega
            _ ≤ _ := Nat.mul_le_mul_left _ h5
      have : B * nOpen n s = B * nOpen n (Fill.visit nbrs zmin v { s with heap := rest }) +
          B * ids.toFinset.card := by rw [← ho]; ring
      omega

theorem loop_count (n : ℕ) (hn : ∀ u, ∀ w ∈ nbrs u, w < n) (hnd : ∀ u, (nbrs u).Nodup) :
    ∀ (fuel : ℕ) (s s' : St K), Inv nbrs z0 start marked s → loop nbrs fuel s = some s' →
    s'.nClosed + nOpen n s' = s.nClosed + s.heap.length + nOpen n s := by
  intro fuel
  induction fuel with
  | zero =>
    intro s s' hI h
    unfold loop at h
    cases hp : popMin s.heap with
    | none => rw [hp] at h; cases h; rw [popMin_none.1 hp]; rfl
    | some q => rw [hp] at h; simp at h
  | succ fuel ih =>
    intro s s' hI h
    unfold loop at h
    cases hp : popMin s.heap with
    | none => rw [hp] at h; cases h; rw [popMin_none.1 hp]; rfl
    | some q =>
      obtain ⟨⟨zmin, v⟩, rest⟩ := q
      rw [hp] at h
      obtain ⟨h1, h2, h3⟩ := popMin_some hp
      rw [ih _ _ (hI.visit h1 h2 h3) h]
      obtain ⟨ids, hids, -, hst, -, hlen, hc⟩ := visit_eq nbrs zmin v { s with heap := rest }
      have hv : s.st v ≠ .opened := (hI.heap_dem _ h1).2.1
      have ho := nOpen_visit n hn (zmin := zmin) (s := { s with heap := rest }) hv hids hst
      have ho' : nOpen n { s with heap := rest } = nOpen n s := rfl
      rw [ho'] at ho
      have hr : rest.length + 1 = s.heap.length := by
        rw [h3, List.length_erase_of_mem h1]
        have := List.length_pos_of_mem h1
        omega
      have hl : ids.toFinset.card = ids.length := by
        rw [List.toFinset_card_of_nodup]
        rw [hids]; exact (hnd v).filter _
      simp only at hlen hc
      rw [hlen, hc, ← ho, hl]
      omega

end
end Fill
