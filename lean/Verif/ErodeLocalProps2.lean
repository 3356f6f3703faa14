import Verif.ErodeLocalProps
import Mathlib.Algebra.BigOperators.Intervals
import Mathlib.Algebra.Order.BigOperators.Group.List
import Mathlib.Tactic.Ring
import Mathlib.Tactic.Linarith

/-!
# The event-driven erosion component: order of events, elevations, drift (C183–C186)
-/

set_option autoImplicit false
set_option linter.unusedSectionVars false

namespace ErodeLocal
open D8Local (getNeighbors idOf Touch)

variable {K : Type*} [Field K] [LinearOrder K] [IsStrictOrderedRing K]

/-! ## One update -/

/-- The state with the clock moved to `t`. -/
def clockAt (s : St K) (t : K) : St K := { s with clock := t }

/-- What one successful update does. -/
structure Step (P : Par K) (s s' : St K) : Prop where
  event : ((s'.clock : WithTop K), s'.active) ∈ s.heap
  onTime : s.tNext s'.active ≤ (s'.clock : WithTop K)
  forward : s.clock ≤ s'.clock
  first : ∀ q ∈ s.heap, q.1 < s.tNext q.2 ∨ before ((s'.clock : WithTop K), s'.active) q = true
  heapOld : ∀ q ∈ s'.heap, (q ∈ s.heap ∧ before ((s'.clock : WithTop K), s'.active) q = true) ∨
    (q.2 ∈ s'.now ∧ notEdge P.ny P.nx q.2 = true ∧ q.1 = s'.tNext q.2)
  heapKeep : ∀ q ∈ s.heap, q = ((s'.clock : WithTop K), s'.active) ∨ q ∈ s'.heap ∨ q.1 < s.tNext q.2
  heapNew : ∀ c ∈ s'.now, notEdge P.ny P.nx c = true → (s'.tNext c, c) ∈ s'.heap
  heapCount : ∀ q : WithTop K × ℤ, notEdge P.ny P.nx q.2 = false → s'.heap.count q ≤ s.heap.count q
  heapPop : notEdge P.ny P.nx s'.active = false →
    s'.heap.count ((s'.clock : WithTop K), s'.active) + 1 ≤ s.heap.count ((s'.clock : WithTop K), s'.active)
  heapLen : s'.heap.length + 1 ≤ s.heap.length + (s'.now.filter (notEdge P.ny P.nx)).length
  tNextNew : ∀ c ∈ s'.now, notEdge P.ny P.nx c = true → s'.tNext c = addTime s'.clock (s'.dt c)
  tNextOld : ∀ c, (c ∉ s'.now ∨ notEdge P.ny P.nx c = false) → s'.tNext c = s.tNext c
  dtPos : ∀ c ∈ s'.now, ((0 : K) : WithTop K) < s'.dt c
  time : s'.time = s.time + (s'.clock - s.clock)
  timeIndex : s'.timeIndex = s.timeIndex + 1
  rateBase : ∀ c ∈ P.base, s'.rate c = -P.blr
  rateOld : ∀ c, c ∉ P.base → c ∉ s'.zone → s'.rate c = s.rate c
  rateNew : ∀ c, c ∉ P.base → c ∈ s'.zone → s'.rate c =
    donors.foldl (fun x d => if s'.code (wrapNbr P c d.1 d.2.1) = d.2.2
          then x + s'.qs (wrapNbr P c d.1 d.2.1) / P.da else x) (-(s'.qs c / P.da) + P.uplift)
  targetOld : ∀ c, c ∉ s'.now → s'.target c = s.target c
  targetNew : ∀ c ∈ s'.now, s'.target c = timesRate (s'.dt c) (s'.rate c)
  dtNew : ∀ c ∈ s'.now, s'.dt c =
    if s'.activeCount > 10 ∧ c = s'.active then (P.dtLimit : WithTop K)
    else if s'.code c = 0 ∧ notEdge P.ny P.nx c = true then divAbs P.pitDz (s'.rate c)
    else if s'.qs c > 0 then ((dtEqual P s'.dem s'.parent s'.qs c : K) : WithTop K)
    else s.dt c
  qsOld : ∀ c, c ∉ s'.zone → s'.qs c = s.qs c
  count : s'.activeCount = if s'.active = s.last then s.activeCount + 1 else 0
  last : s'.last = s'.active
  done : s'.done = (s.done || decide (s'.dzMax > 1000))

/-- The splash zone of a successful update, compared with the state before it at the new time. -/
structure Zone (P : Par K) (s s' : St K) : Prop where
  zoneNodup : s'.zone.Nodup
  len : s'.zone.length ≤ P.cap
  idNow : s'.active ∈ s'.now
  nowIff : ∀ c, c ∈ s'.now ↔ Reached P (clockAt s s'.clock) s'.active c
  zoneIff : ∀ c, c ∈ s'.zone ↔ c ∈ s'.now ∨ ∃ d ∈ s'.now, Adj P.ny P.nx d c
  inZone : ∀ c ∈ s'.zone, s'.dem c = s.dem c + s.rate c * (s'.clock - s.tLast c) ∧
    s'.tLast c = s'.clock ∧ s'.count c = s.count c + 1 ∧ (c ∈ s'.now → s'.cap c = 0) ∧
    (c ∉ s'.now → s'.cap c = drift (clockAt s s'.clock) c)
  outZone : ∀ c, c ∉ s'.zone → s'.dem c = s.dem c ∧ s'.tLast c = s.tLast c ∧
    s'.count c = s.count c ∧ s'.cap c = s.cap c
  notDue : ∀ c ∈ s'.zone, c ∉ s'.now → ¬ Due P (clockAt s s'.clock) c
  dzMax : ∃ l : List ℤ, (∀ c ∈ l, c ∈ s'.zone) ∧
    s'.dzMax = (l.map (fun c => |s.rate c * (s'.clock - s.tLast c)|)).foldr max 0

theorem reached_congr {P : Par K} {s1 s2 : St K} {id : ℤ} (h : ∀ c, Due P s1 c ↔ Due P s2 c) {c : ℤ}
    (hr : Reached P s1 id c) : Reached P s2 id c := by
  induction hr with
  | active => exact .active
  | next _ hadj hne hdue ih => exact .next ih hadj hne ((h _).mp hdue)

theorem found_now_iff {P : Par K} {s0 s : St K} {id : ℤ} (h : Found P s0 id s) (c : ℤ) :
    c ∈ s.now ↔ Reached P s0 id c := by
  constructor
  · exact h.search.nowReached c
  · intro hr
    induction hr with
    | active => exact h.search.idNow
    | next _ hadj hne hdue ih =>
      by_contra hn
      exact h.search.notDue _ (h.closed _ ih _ hadj) hn hdue

theorem foldl_donors_congr (P : Par K) {code code' : ℤ → ℤ} {qs qs' : ℤ → K} (h1 : code = code')
    (h2 : qs = qs') (c : ℤ) (x : K) :
    donors.foldl (fun x d => if code (wrapNbr P c d.1 d.2.1) = d.2.2
          then x + qs (wrapNbr P c d.1 d.2.1) / P.da else x) x =
    donors.foldl (fun x d => if code' (wrapNbr P c d.1 d.2.1) = d.2.2
          then x + qs' (wrapNbr P c d.1 d.2.1) / P.da else x) x := by
  subst h1 h2; rfl

/-- A successful update takes an event, finds the zone, and plans the next events. -/
theorem update_ok {P : Par K} {route : St K → Except String (Routed K)} {fuel : ℕ} {s s' : St K}
    (hcap : 1 ≤ P.cap) (hgrid : ∀ q ∈ s.heap, InGrid P.ny P.nx q.2)
    (h : update P route fuel s = some (.ok s')) : Step P s s' ∧ Zone P s s' := by
  unfold update at h
  cases hne : nextEvent s.tNext s.heap.length s.heap with
  | error e => rw [hne] at h; cases h
  | ok x =>
    obtain ⟨⟨T, id⟩, hp⟩ := x
    rw [hne] at h
    obtain ⟨n1, n2, n3, n4, n5, n6, n7, n8⟩ := nextEvent_spec _ _ _ _ _ hne
    cases T with
    | top => cases h
    | coe t =>
      change (if t - s.clock < 0 then _ else _) = _ at h
      by_cases hb : t - s.clock < 0
      · rw [if_pos hb] at h; cases h
      · rw [if_neg hb] at h
        have hid : InGrid P.ny P.nx id := hgrid _ n1
        have hsa := search_activate P (select s t id hp) id hid hcap
        cases hsp : splash P fuel [id] (activate id (select s t id hp)) with
        | none => rw [hsp] at h; cases h
        | some x =>
          rw [hsp] at h
          cases x with
          | error e => cases h
          | ok s1 =>
            change some (finish P route (t - s.clock) s1) = _ at h
            injection h with h
            have hf : Found P (select s t id hp) id s1 := by
              refine splash_found fuel [id] _ s1 hsa ?_ ?_ hsp
              · intro i hi
                have : i = id := by simpa using hi
                rw [this]; exact hsa.idNow
              · intro d hd hdn
                exact absurd (by simpa [activate] using hd) hdn
            have hs := hf.search
            have fr := hs.frame
            unfold finish at h
            cases hr : route s1 with
            | error e => rw [hr] at h; cases h
            | ok r =>
              rw [hr] at h
              dsimp only at h
              obtain ⟨s2, hs2⟩ : ∃ s2, s2 = updateRate P { s1 with code := r.code, parent := r.parent, qs := fun c => if c ∈ s1.zone then r.qs c else s1.qs c } s1.zone := ⟨_, rfl⟩
              change (match updateDt P (updateRate P { s1 with code := r.code, parent := r.parent, qs := fun c => if c ∈ s1.zone then r.qs c else s1.qs c } s1.zone) s1.now with
                | .error e => _
                | .ok s => _) = _ at h
              rw [← hs2] at h
              unfold updateDt at h
              by_cases hd : ∃ c ∈ s1.now, newDt P s2 s1.now c ≤ ((0 : K) : WithTop K)
              · rw [if_pos hd] at h; cases h
              · rw [if_neg hd] at h
                dsimp only at h
                injection h with h
                have hnow2 : s2.now = s1.now := by rw [hs2]; rfl
                rw [hnow2] at h
                push Not at hd
                have e_clock : s1.clock = t := fr.clock
                have e_act : s1.active = id := fr.active
                -- components of the final state
                have c_clock : s'.clock = t := by rw [← h, ← e_clock, hs2]; rfl
                have c_act : s'.active = id := by rw [← h, ← e_act, hs2]; rfl
                have c_now : s'.now = s1.now := by rw [← h, ← hnow2]; rfl
                have c_zone : s'.zone = s1.zone := by rw [← h, hs2]; rfl
                have c_dem : s'.dem = s1.dem := by rw [← h, hs2]; rfl
                have c_cap : s'.cap = s1.cap := by rw [← h, hs2]; rfl
                have c_tLast : s'.tLast = s1.tLast := by rw [← h, hs2]; rfl
                have c_count : s'.count = s1.count := by rw [← h, hs2]; rfl
                have c_dzMax : s'.dzMax = s1.dzMax := by rw [← h, hs2]; rfl
                have c_dt : s'.dt = newDt P s2 s1.now := by rw [← h]; rfl
                have c_code : s'.code = s2.code := by rw [← h]; rfl
                have c_parent : s'.parent = s2.parent := by rw [← h]; rfl
                have c_qs : s'.qs = s2.qs := by rw [← h]; rfl
                have c_rate : s'.rate = s2.rate := by rw [← h]; rfl
                have c_cnt : s'.activeCount = s2.activeCount := by rw [← h]; rfl
                have d_clock : s2.clock = t := by rw [hs2]; exact e_clock
                have d_heap : s2.heap = hp := by rw [hs2]; exact fr.heap
                have d_tNext : s2.tNext = s.tNext := by rw [hs2]; exact fr.tNext
                have d_target : s2.target = s.target := by rw [hs2]; exact fr.target
                have d_dt : s2.dt = s.dt := by rw [hs2]; exact fr.dt
                have d_act : s2.active = id := by rw [hs2]; exact fr.active
                have d_dem : s2.dem = s1.dem := by rw [hs2]; rfl
                have c_heap : s'.heap = (s1.now.filter (notEdge P.ny P.nx)).map
                    (fun c => (addTime t (newDt P s2 s1.now c), c)) ++ hp := by
                  rw [← h, ← d_heap, ← d_clock]; rfl
                have c_tNext : s'.tNext = fun c => if c ∈ s1.now.filter (notEdge P.ny P.nx)
                    then addTime t (newDt P s2 s1.now c) else s.tNext c := by
                  rw [← h, ← d_tNext, ← d_clock]; rfl
                have c_target : s'.target = fun c => if c ∈ s1.now
                    then timesRate (newDt P s2 s1.now c) (s2.rate c) else s.target c := by
                  rw [← h, ← d_target]; rfl
                have pair : ((s'.clock : WithTop K), s'.active) = ((t : WithTop K), id) := by
                  rw [c_clock, c_act]
                have hdue : ∀ c, Due P (select s t id hp) c ↔ Due P (clockAt s s'.clock) c := by
                  intro c; rw [c_clock]; exact Iff.rfl
                have hedge0 : ∀ q : WithTop K × ℤ, notEdge P.ny P.nx q.2 = false →
                    ((s1.now.filter (notEdge P.ny P.nx)).map
                      (fun c => (addTime t (newDt P s2 s1.now c), c))).count q = 0 := by
                  intro q hq
                  rw [List.count_eq_zero]
                  intro hm
                  obtain ⟨c, hc, rfl⟩ := List.mem_map.mp hm
                  have := (List.mem_filter.mp hc).2
                  dsimp only at hq
                  rw [hq] at this; cases this
                refine ⟨?_, ?_⟩
                · refine
                    { event := ?_, onTime := ?_, forward := ?_, first := ?_, heapOld := ?_
                      heapKeep := ?_, heapNew := ?_, heapCount := ?_, heapPop := ?_, heapLen := ?_
                      tNextNew := ?_, tNextOld := ?_, dtPos := ?_, time := ?_, timeIndex := ?_
                      rateBase := ?_, rateOld := ?_, rateNew := ?_, targetOld := ?_
                      targetNew := ?_, dtNew := ?_, qsOld := ?_, count := ?_, last := ?_
                      done := ?_ }
                  · rw [pair]; exact n1
                  · rw [c_clock, c_act]; exact n2
                  · rw [c_clock]; linarith [not_lt.mp hb]
                  · rw [pair]; exact n6
                  · intro q hq
                    rw [c_heap] at hq
                    rcases List.mem_append.mp hq with hq | hq
                    · right
                      obtain ⟨c, hc, rfl⟩ := List.mem_map.mp hq
                      rw [c_now, c_tNext]
                      refine ⟨(List.mem_filter.mp hc).1, (List.mem_filter.mp hc).2, ?_⟩
                      dsimp only
                      rw [if_pos hc]
                    · left
                      rw [pair]
                      exact n3 q hq
                  · intro q hq
                    rw [pair, c_heap]
                    rcases n4 q hq with a | a | a
                    · exact Or.inl a
                    · exact Or.inr (Or.inl (List.mem_append_right _ a))
                    · exact Or.inr (Or.inr a)
                  · intro c hc he
                    rw [c_now] at hc
                    have hm : c ∈ s1.now.filter (notEdge P.ny P.nx) := List.mem_filter.mpr ⟨hc, he⟩
                    rw [c_heap, c_tNext]
                    dsimp only
                    rw [if_pos hm]
                    exact List.mem_append_left _ (List.mem_map.mpr ⟨c, hm, rfl⟩)
                  · intro q hq
                    rw [c_heap, List.count_append, hedge0 q hq, zero_add]
                    exact n7 q
                  · intro he
                    rw [c_act] at he
                    rw [pair, c_heap, List.count_append, hedge0 _ he, zero_add]
                    exact n8
                  · rw [c_heap, c_now, List.length_append, List.length_map]
                    omega
                  · intro c hc he
                    rw [c_now] at hc
                    have hm : c ∈ s1.now.filter (notEdge P.ny P.nx) := List.mem_filter.mpr ⟨hc, he⟩
                    rw [c_tNext, c_dt, c_clock]
                    dsimp only
                    rw [if_pos hm]
                  · intro c hc
                    have hm : c ∉ s1.now.filter (notEdge P.ny P.nx) := by
                      rw [List.mem_filter]
                      rintro ⟨a, b⟩
                      rcases hc with hc | hc
                      · exact hc (c_now ▸ a)
                      · rw [hc] at b; cases b
                    rw [c_tNext]
                    dsimp only
                    rw [if_neg hm]
                  · intro c hc
                    rw [c_dt]
                    exact hd c (c_now ▸ hc)
                  · have : s'.time = s1.time + (t - s.clock) := by rw [← h, hs2]; rfl
                    rw [this, c_clock, fr.time]; rfl
                  · have : s'.timeIndex = s1.timeIndex + 1 := by rw [← h, hs2]; rfl
                    rw [this, fr.timeIndex]; rfl
                  · intro c hc
                    rw [c_rate, hs2]
                    exact if_pos hc
                  · intro c hb hc
                    rw [c_rate, hs2]
                    simp only [updateRate]
                    rw [if_neg hb, if_neg (c_zone ▸ hc), fr.rate]
                    rfl
                  · intro c hb hc
                    rw [c_rate, c_code, c_qs, hs2]
                    simp only [updateRate]
                    rw [if_neg hb, if_pos (c_zone ▸ hc)]
                  · intro c hc
                    rw [c_target]
                    exact if_neg (c_now ▸ hc)
                  · intro c hc
                    rw [c_target, c_dt, c_rate]
                    exact if_pos (c_now ▸ hc)
                  · intro c hc
                    rw [c_dt, c_code, c_qs, c_parent, c_rate, c_act, c_cnt, c_dem, ← d_dem, ← d_dt,
                      ← d_act]
                    unfold newDt
                    have hc' : c ∈ s1.now := c_now ▸ hc
                    rw [if_pos hc']
                  · intro c hc
                    rw [c_qs, hs2]
                    simp only [updateRate]
                    rw [if_neg (c_zone ▸ hc), fr.qs]
                    rfl
                  · have : s2.activeCount = s1.activeCount := by rw [hs2]; rfl
                    rw [c_cnt, c_act, this, fr.activeCount]; rfl
                  · have : s'.last = s1.last := by rw [← h, hs2]; rfl
                    rw [this, c_act, fr.last]; rfl
                  · have : s'.done = (s1.done || decide (s1.dzMax > 1000)) := by rw [← h, hs2]; rfl
                    rw [this, c_dzMax, fr.done]; rfl
                · refine
                    { zoneNodup := ?_, len := ?_, idNow := ?_, nowIff := ?_, zoneIff := ?_
                      inZone := ?_, outZone := ?_, notDue := ?_, dzMax := ?_ }
                  · rw [c_zone]; exact hs.zoneNodup
                  · rw [c_zone]; exact hs.len
                  · rw [c_act, c_now]; exact hs.idNow
                  · intro c
                    rw [c_now, c_act, found_now_iff hf c]
                    exact ⟨reached_congr hdue, reached_congr (fun c => (hdue c).symm)⟩
                  · intro c
                    rw [c_zone, c_now]
                    constructor
                    · intro hc
                      rcases hs.zoneNow c hc with e | e
                      · left; rw [e]; exact hs.idNow
                      · exact Or.inr e
                    · rintro (hc | ⟨d, hd', hadj⟩)
                      · exact hs.nowZone c hc
                      · exact hf.closed d hd' c hadj
                  · intro c hc
                    rw [c_zone] at hc
                    rw [c_dem, c_clock, c_tLast, c_count, c_cap, c_now]
                    exact hs.inZone c hc
                  · intro c hc
                    rw [c_zone] at hc
                    rw [c_dem, c_tLast, c_count, c_cap]
                    exact hs.outZone c hc
                  · intro c hc hcn
                    rw [← hdue c]
                    exact hs.notDue c (c_zone ▸ hc) (c_now ▸ hcn)
                  · obtain ⟨l, hl, hm⟩ := hs.dzMax
                    refine ⟨l, by rw [c_zone]; exact hl, ?_⟩
                    rw [c_dzMax, hm, c_clock]
                    rfl

/-! ## Histories -/

/-- A history of a run: it starts from an initialised model and every further state is the result of
a successful update (each with any routing). -/
structure History (P : Par K) (fuel : ℕ) (x : ℕ → St K) (n : ℕ) : Prop where
  capPos : 1 ≤ P.cap
  init : ∃ dem r rate, start P dem r rate = .ok (x 0) ∧ ∀ c ∈ P.base, rate c = -P.blr
  step : ∀ k < n, ∃ route, update P route fuel (x k) = some (.ok (x (k + 1)))

/-- What always holds. -/
structure Inv (P : Par K) (s : St K) : Prop where
  sched : ∀ c, notEdge P.ny P.nx c = true → (s.tNext c, c) ∈ s.heap
  edge : ∀ q ∈ s.heap, notEdge P.ny P.nx q.2 = false → q.1 = s.tNext q.2
  edgeOnce : ∀ q, notEdge P.ny P.nx q.2 = false → s.heap.count q ≤ 1
  grid : ∀ q ∈ s.heap, InGrid P.ny P.nx q.2
  later : ∀ q ∈ s.heap, (s.clock : WithTop K) ≤ q.1
  last : ∀ c, s.tLast c ≤ s.clock
  time : s.time = s.clock
  base : ∀ c ∈ P.base, s.rate c = -P.blr

theorem notEdge_inGrid {ny nx : ℕ} {c : ℤ} (h : notEdge ny nx c = true) : InGrid ny nx c := by
  simp only [notEdge, decide_eq_true_eq] at h
  exact ⟨h.1, h.2.1⟩

theorem mem_cells {P : Par K} {c : ℤ} : c ∈ cells P ↔ InGrid P.ny P.nx c := by
  simp only [cells, List.mem_map, List.mem_range, InGrid]
  constructor
  · rintro ⟨i, hi, rfl⟩
    exact ⟨by positivity, by exact_mod_cast hi⟩
  · rintro ⟨h1, h2⟩
    exact ⟨c.toNat, by omega, by omega⟩

theorem cells_nodup (P : Par K) : (cells P).Nodup := by
  unfold cells
  rw [List.nodup_map_iff (fun a b h => by exact_mod_cast h)]
  exact List.nodup_range

theorem inv_start {P : Par K} {dem : ℤ → K} {r : Routed K} {rate : ℤ → K} {s : St K}
    (h : start P dem r rate = .ok s) (hb : ∀ c ∈ P.base, rate c = -P.blr) : Inv P s := by
  unfold start at h
  split at h
  · cases h
  · rename_i hd
    injection h with h
    subst h
    push Not at hd
    refine
      { sched := ?_, edge := ?_, edgeOnce := ?_, grid := ?_, later := ?_, last := ?_, time := rfl
        base := hb }
    · intro c hc
      exact List.mem_map.mpr ⟨c, mem_cells.mpr (notEdge_inGrid hc), rfl⟩
    · intro q hq _
      obtain ⟨c, -, rfl⟩ := List.mem_map.mp hq
      rfl
    · intro q _
      apply List.nodup_iff_count_le_one.mp
      rw [List.nodup_map_iff (fun a b h => (Prod.mk.inj h).2)]
      exact cells_nodup P
    · intro q hq
      obtain ⟨c, hc, rfl⟩ := List.mem_map.mp hq
      exact mem_cells.mp hc
    · intro q hq
      obtain ⟨c, hc, rfl⟩ := List.mem_map.mp hq
      exact (hd c hc).le
    · intro c; exact le_refl _

theorem addTime_gt {t : K} {d : WithTop K} (h : ((0 : K) : WithTop K) < d) :
    (t : WithTop K) < addTime t d := by
  cases d with
  | top => exact WithTop.coe_lt_top t
  | coe d =>
    have hd : 0 < d := WithTop.coe_lt_coe.mp h
    change (t : WithTop K) < ((t + d : K) : WithTop K)
    rw [WithTop.coe_lt_coe]
    linarith

theorem inv_step {P : Par K} {s s' : St K} (hi : Inv P s) (h : Step P s s') (hz : Zone P s s') :
    Inv P s' := by
  -- the event executed is the current one of its cell
  refine
    { sched := ?_, edge := ?_, edgeOnce := ?_, grid := ?_, later := ?_, last := ?_, time := ?_
      base := h.rateBase }
  · intro c hc
    by_cases hn : c ∈ s'.now
    · exact h.heapNew c hn hc
    · rw [h.tNextOld c (Or.inl hn)]
      rcases h.heapKeep _ (hi.sched c hc) with e | e | e
      · exfalso
        apply hn
        have : c = s'.active := congrArg Prod.snd e
        rw [this]; exact hz.idNow
      · exact e
      · exact absurd e (lt_irrefl _)
  · intro q hq he
    rcases h.heapOld q hq with ⟨a, -⟩ | ⟨-, b, -⟩
    · rw [h.tNextOld _ (Or.inr he)]
      exact hi.edge q a he
    · rw [he] at b; cases b
  · intro q he
    exact (h.heapCount q he).trans (hi.edgeOnce q he)
  · intro q hq
    rcases h.heapOld q hq with ⟨a, -⟩ | ⟨-, b, -⟩
    · exact hi.grid q a
    · exact notEdge_inGrid b
  · intro q hq
    rcases h.heapOld q hq with ⟨-, b⟩ | ⟨a, b, c⟩
    · exact before_le b
    · rw [c, h.tNextNew _ a b]
      exact (addTime_gt (h.dtPos _ a)).le
  · intro c
    by_cases hc : c ∈ s'.zone
    · exact (hz.inZone c hc).2.1.le
    · rw [(hz.outZone c hc).2.1]
      exact (hi.last c).trans h.forward
  · rw [h.time, hi.time]; ring

theorem History.inv {P : Par K} {fuel : ℕ} {x : ℕ → St K} {n : ℕ} (h : History P fuel x n) :
    ∀ k ≤ n, Inv P (x k) := by
  intro k
  induction k with
  | zero =>
    intro _
    obtain ⟨dem, r, rate, h1, h2⟩ := h.init
    exact inv_start h1 h2
  | succ k ih =>
    intro hk
    have hi := ih (by omega)
    obtain ⟨route, hu⟩ := h.step k (by omega)
    obtain ⟨a, b⟩ := update_ok h.capPos hi.grid hu
    exact inv_step hi a b

theorem History.steps {P : Par K} {fuel : ℕ} {x : ℕ → St K} {n : ℕ} (h : History P fuel x n)
    {k : ℕ} (hk : k < n) : Step P (x k) (x (k + 1)) ∧ Zone P (x k) (x (k + 1)) := by
  obtain ⟨route, hu⟩ := h.step k hk
  exact update_ok h.capPos (h.inv k hk.le).grid hu

/-! ## C183: order of the events -/

/-- Every update executes, at the time scheduled for it, the cell whose scheduled time is the
earliest of all inner cells (the smallest ID among equals), and the clock never goes back. -/
theorem C183_order {P : Par K} {fuel : ℕ} {x : ℕ → St K} {n : ℕ} (h : History P fuel x n) {k : ℕ}
    (hk : k < n) :
    (x k).clock ≤ (x (k + 1)).clock ∧
    (x k).tNext (x (k + 1)).active = ((x (k + 1)).clock : WithTop K) ∧
    (∀ c, notEdge P.ny P.nx c = true → ((x (k + 1)).clock : WithTop K) ≤ (x k).tNext c) ∧
    (∀ c, notEdge P.ny P.nx c = true → (x k).tNext c = ((x (k + 1)).clock : WithTop K) →
      (x (k + 1)).active ≤ c) ∧
    (x (k + 1)).time = (x (k + 1)).clock ∧ (x (k + 1)).timeIndex = (x k).timeIndex + 1 := by
  obtain ⟨hs, hz⟩ := h.steps hk
  have hi := h.inv k hk.le
  have hmin : ∀ c, notEdge P.ny P.nx c = true →
      before (((x (k + 1)).clock : WithTop K), (x (k + 1)).active) ((x k).tNext c, c) = true := by
    intro c hc
    rcases hs.first _ (hi.sched c hc) with e | e
    · exact absurd e (lt_irrefl _)
    · exact e
  refine ⟨hs.forward, ?_, fun c hc => before_le (hmin c hc), ?_, (h.inv (k + 1) hk).time,
    hs.timeIndex⟩
  · by_cases he : notEdge P.ny P.nx (x (k + 1)).active = true
    · exact le_antisymm hs.onTime (before_le (hmin _ he))
    · exact (hi.edge _ hs.event (by simpa using he)).symm
  · intro c hc he
    have := hmin c hc
    rw [before_iff] at this
    rcases this with e | e
    · rw [he] at e; exact absurd e (lt_irrefl _)
    · exact e.2

/-- No event is missed: when the clock has passed the time scheduled for an inner cell, the cell has
had a full update in between. -/
theorem C183_not_missed {P : Par K} {fuel : ℕ} {x : ℕ → St K} {n : ℕ} (h : History P fuel x n)
    {k : ℕ} (hk : k ≤ n) {c : ℤ} (hc : notEdge P.ny P.nx c = true)
    (hlate : (x k).tNext c < ((x n).clock : WithTop K)) :
    ∃ j, k ≤ j ∧ j < n ∧ c ∈ (x (j + 1)).now := by
  by_contra hno
  push Not at hno
  have heq : ∀ m, k ≤ m → m ≤ n → (x m).tNext c = (x k).tNext c := by
    intro m hkm
    induction m, hkm using Nat.le_induction with
    | base => intro _; rfl
    | succ m hm ih =>
      intro hmn
      rw [(h.steps (by omega : m < n)).1.tNextOld c (Or.inl (hno m hm (by omega))), ih (by omega)]
  have hi := h.inv n (le_refl _)
  have := hi.later _ (hi.sched c hc)
  dsimp only at this
  rw [heq n hk (le_refl _)] at this
  exact absurd hlate (not_lt.mpr this)

/-- A cell on the edge of the grid is executed at most once. -/
theorem C183_edge_once {P : Par K} {fuel : ℕ} {x : ℕ → St K} {n : ℕ} (h : History P fuel x n)
    {j k : ℕ} (hjk : j < k) (hk : k < n) (he : notEdge P.ny P.nx (x (j + 1)).active = false) :
    (x (k + 1)).active ≠ (x (j + 1)).active := by
  have hnone : ∀ m, j + 1 ≤ m → m ≤ n → ∀ q ∈ (x m).heap, q.2 ≠ (x (j + 1)).active := by
    intro m hm
    induction m, hm using Nat.le_induction with
    | base =>
      intro _ q hq e
      obtain ⟨hs, -⟩ := h.steps (by omega : j < n)
      have hi := h.inv j (by omega)
      have hi1 := h.inv (j + 1) (by omega)
      have heq : q.2 = (x (j + 1)).active := e
      have h1 := hi1.edge q hq (by rw [heq]; exact he)
      rw [heq, hs.tNextOld _ (Or.inr he), ← hi.edge _ hs.event he] at h1
      have : q = (((x (j + 1)).clock : WithTop K), (x (j + 1)).active) := Prod.ext h1 heq
      have h2 := hs.heapPop he
      have h3 := hi.edgeOnce (((x (j + 1)).clock : WithTop K), (x (j + 1)).active) he
      have h4 := List.count_pos_iff.mpr (this ▸ hq)
      omega
    | succ m hm ih =>
      intro hmn q hq e
      obtain ⟨hs, -⟩ := h.steps (by omega : m < n)
      rcases hs.heapOld q hq with ⟨a, -⟩ | ⟨-, b, -⟩
      · exact ih (by omega) q a e
      · rw [e, he] at b; cases b
  intro e
  obtain ⟨hs, -⟩ := h.steps hk
  exact hnone k (by omega) hk.le _ hs.event e

/-- What an update of a model with an inner cell can fail with: an infinite event time, a splash
zone or list of cells longer than the arrays, a failure of the routing, or a time step that is not
positive.  In particular the clock never goes back and the heap never runs empty. -/
theorem C183_failures {P : Par K} {fuel : ℕ} {x : ℕ → St K} {n : ℕ} (h : History P fuel x n)
    (hin : ∃ c, notEdge P.ny P.nx c = true) {route : St K → Except String (Routed K)} {m : String}
    (he : update P route fuel (x n) = some (.error m)) :
    m = "T_clock = inf" ∨ m = "SystemExit: Splash zone exceeded max size" ∨
    m = "SystemExit: all_now_IDs exceeded max size" ∨ m = "SystemExit: dt_min <= 0" ∨
    ∃ s, route s = .error m := by
  have hi := h.inv n (le_refl _)
  have hsplash : ∀ (fuel : ℕ) (ids : List ℤ) (s : St K) (m : String),
      splash P fuel ids s = some (.error m) →
      m = "SystemExit: Splash zone exceeded max size" ∨
      m = "SystemExit: all_now_IDs exceeded max size" := by
    intro fuel
    induction fuel with
    | zero => intro ids s m hm; cases hm
    | succ f ih =>
      intro ids s m hm
      rw [splash_succ P f ids s _ _ rfl rfl] at hm
      split at hm
      · cases hm
      · split at hm
        · injection hm with hm; injection hm with hm; exact Or.inl hm.symm
        · split at hm
          · cases hm
          · split at hm
            · injection hm with hm; injection hm with hm; exact Or.inr hm.symm
            · exact ih _ _ _ hm
  unfold update at he
  cases hne : nextEvent (x n).tNext (x n).heap.length (x n).heap with
  | error e =>
    exfalso
    obtain ⟨c, hc⟩ := hin
    exact lt_irrefl _ (((nextEvent_error _ _ _ rfl).mp ⟨e, hne⟩) _ (hi.sched c hc))
  | ok y =>
    obtain ⟨⟨T, id⟩, hp⟩ := y
    rw [hne] at he
    obtain ⟨n1, -⟩ := nextEvent_spec _ _ _ _ _ hne
    cases T with
    | top => injection he with he; injection he with he; exact Or.inl he.symm
    | coe t =>
      change (if t - (x n).clock < 0 then _ else _) = _ at he
      have hb : ¬ t - (x n).clock < 0 := by
        have := hi.later _ n1
        have := WithTop.coe_le_coe.mp this
        linarith
      rw [if_neg hb] at he
      cases hsp : splash P fuel [id] (activate id (select (x n) t id hp)) with
      | none => rw [hsp] at he; cases he
      | some y =>
        rw [hsp] at he
        cases y with
        | error e =>
          injection he with he; injection he with he
          subst he
          rcases hsplash _ _ _ _ hsp with e | e
          · exact Or.inr (Or.inl e)
          · exact Or.inr (Or.inr (Or.inl e))
        | ok s1 =>
          change some (finish P route (t - (x n).clock) s1) = _ at he
          injection he with he
          unfold finish at he
          cases hr : route s1 with
          | error e =>
            rw [hr] at he
            injection he with he
            exact Or.inr (Or.inr (Or.inr (Or.inr ⟨s1, by rw [hr, he]⟩)))
          | ok r =>
            rw [hr] at he
            dsimp only at he
            unfold updateDt at he
            split at he
            · rename_i e heq
              split at heq
              · injection heq with heq; injection he with he
                exact Or.inr (Or.inr (Or.inr (Or.inl (by rw [← he, ← heq]))))
              · cases heq
            · cases he

/-! ## C184: the splash zone -/

/-- The cells given a full update are exactly those reached from the active cell through cells that
are due; the cells brought up to date are these and the cells touching one of them, each exactly
once; nothing else changes; there are at most `cap` of them. -/
theorem C184_zone {P : Par K} {fuel : ℕ} {x : ℕ → St K} {n : ℕ} (h : History P fuel x n) {k : ℕ}
    (hk : k < n) :
    (∀ c, c ∈ (x (k + 1)).now ↔ Reached P (clockAt (x k) (x (k + 1)).clock) (x (k + 1)).active c) ∧
    (∀ c, c ∈ (x (k + 1)).zone ↔ c ∈ (x (k + 1)).now ∨ ∃ d ∈ (x (k + 1)).now, Adj P.ny P.nx d c) ∧
    (x (k + 1)).zone.Nodup ∧ (x (k + 1)).zone.length ≤ P.cap ∧
    (∀ c ∈ (x (k + 1)).zone, (x (k + 1)).count c = (x k).count c + 1 ∧
      (x (k + 1)).tLast c = (x (k + 1)).clock) ∧
    (∀ c, c ∉ (x (k + 1)).zone → (x (k + 1)).count c = (x k).count c ∧
      (x (k + 1)).tLast c = (x k).tLast c ∧ (x (k + 1)).dem c = (x k).dem c ∧
      (x (k + 1)).cap c = (x k).cap c ∧ (x (k + 1)).tNext c = (x k).tNext c ∧
      (x (k + 1)).qs c = (x k).qs c ∧ (c ∉ P.base → (x (k + 1)).rate c = (x k).rate c)) := by
  obtain ⟨hs, hz⟩ := h.steps hk
  refine ⟨hz.nowIff, hz.zoneIff, hz.zoneNodup, hz.len,
    fun c hc => ⟨(hz.inZone c hc).2.2.1, (hz.inZone c hc).2.1⟩, ?_⟩
  intro c hc
  obtain ⟨a, b, d, e⟩ := hz.outZone c hc
  refine ⟨d, b, a, e, hs.tNextOld c (Or.inl ?_), hs.qsOld c hc, fun hb => hs.rateOld c hb hc⟩
  intro hn
  exact hc ((hz.zoneIff c).mpr (Or.inl hn))

/-- The search always ends (whatever the state), within a recursion as deep as the arrays are
long. -/
theorem C184_terminates (P : Par K) (route : St K → Except String (Routed K)) (s : St K)
    (hcap : 1 ≤ P.cap) {fuel : ℕ} (hf : P.cap ≤ fuel) : (update P route fuel s).isSome := by
  unfold update
  cases hne : nextEvent s.tNext s.heap.length s.heap with
  | error e => rfl
  | ok y =>
    obtain ⟨⟨T, id⟩, hp⟩ := y
    cases T with
    | top => rfl
    | coe t =>
      change (if t - s.clock < 0 then _ else _ : Option _).isSome
      by_cases hb : t - s.clock < 0
      · rw [if_pos hb]; rfl
      · rw [if_neg hb]
        have := splash_isSome P fuel [id] (activate id (select s t id hp))
          (by simpa [activate] using hcap) (by simp [activate]; omega)
        cases hsp : splash P fuel [id] (activate id (select s t id hp)) with
        | none => rw [hsp] at this; cases this
        | some y => cases y <;> rfl

/-! ## C185: elevations -/

/-- At the end of a run every cell has its initial elevation plus, for every interval between two
events, the rate it had in that interval times the length of the interval: no time is counted twice
and none is left out, however often the cell was brought up to date. -/
theorem C185_elevation {P : Par K} {fuel : ℕ} {x : ℕ → St K} {n : ℕ} (h : History P fuel x n)
    (c : ℤ) : finalDEM (x n) c = (x 0).dem c +
      ∑ k ∈ Finset.range n, (x k).rate c * ((x (k + 1)).clock - (x k).clock) := by
  have key : ∀ m ≤ n, finalDEM (x m) c = (x 0).dem c +
      ∑ k ∈ Finset.range m, (x k).rate c * ((x (k + 1)).clock - (x k).clock) := by
    intro m
    induction m with
    | zero =>
      intro _
      obtain ⟨dem, r, rate, h1, -⟩ := h.init
      unfold start at h1
      split at h1
      · cases h1
      · injection h1 with h1
        rw [← h1]
        simp [finalDEM, dz]
    | succ m ih =>
      intro hm
      rw [Finset.sum_range_succ, ← add_assoc, ← ih (by omega)]
      obtain ⟨hs, hz⟩ := h.steps (by omega : m < n)
      have hi := h.inv m (by omega)
      by_cases hc : c ∈ (x (m + 1)).zone
      · obtain ⟨a, b, -⟩ := hz.inZone c hc
        simp only [finalDEM, dz, a, b]
        ring
      · obtain ⟨a, b, -⟩ := hz.outZone c hc
        have hr : (x (m + 1)).rate c = (x m).rate c := by
          by_cases hb : c ∈ P.base
          · rw [hs.rateBase c hb, hi.base c hb]
          · exact hs.rateOld c hb hc
        simp only [finalDEM, dz, a, b, hr]
        ring
  exact key n (le_refl _)

/-! ## C186: drift between full updates -/

/-- Within the target: smaller than it and of the same sign. -/
def Within (d : K) : Target K → Prop
  | .fin y => |d| < |y| ∧ SignType.sign d = SignType.sign y
  | .inf neg => SignType.sign d = if neg then -1 else 1
  | .nan => False

theorem not_due_within {P : Par K} {s : St K} {c : ℤ} (h : ¬ Due P s c) :
    drift s c = 0 ∨ Within (drift s c) (s.target c) := by
  by_cases h0 : drift s c = 0
  · exact Or.inl h0
  · right
    unfold Due at h
    rw [not_and] at h
    have h1 := h h0
    rw [not_or] at h1
    have h2 := h1.2
    unfold Within
    cases ht : s.target c with
    | fin y =>
      rw [ht] at h2
      dsimp only at h2 ⊢
      push Not at h2
      exact h2
    | inf neg =>
      rw [ht] at h2
      dsimp only at h2 ⊢
      push Not at h2
      exact h2
    | nan =>
      rw [ht] at h2
      exact absurd trivial h2

/-- Between two full updates of a cell its target stays, and its recorded elevation never moves as
far as the target or in the other direction. -/
theorem C186_drift {P : Par K} {fuel : ℕ} {x : ℕ → St K} {n : ℕ} (h : History P fuel x n) {k : ℕ}
    (hk : k ≤ n) {c : ℤ} (hfull : k = 0 ∨ c ∈ (x k).now)
    (hno : ∀ j, k < j → j ≤ n → c ∉ (x j).now) :
    (x n).target c = (x k).target c ∧
    ((x n).dem c = (x k).dem c ∨ Within ((x n).dem c - (x k).dem c) ((x k).target c)) := by
  have key : ∀ m, k ≤ m → m ≤ n → (x m).target c = (x k).target c ∧
      (x m).cap c = (x m).dem c - (x k).dem c ∧
      ((x m).cap c = 0 ∨ Within ((x m).cap c) ((x m).target c)) := by
    intro m hkm
    induction m, hkm using Nat.le_induction with
    | base =>
      intro _
      have hc0 : (x k).cap c = 0 := by
        rcases Nat.eq_zero_or_pos k with e | e
        · rw [e]
          obtain ⟨dem, r, rate, h1, -⟩ := h.init
          unfold start at h1
          split at h1
          · cases h1
          · injection h1 with h1
            rw [← h1]
        · obtain ⟨j, rfl⟩ : ∃ j, k = j + 1 := ⟨k - 1, by omega⟩
          have hc : c ∈ (x (j + 1)).now := by
            rcases hfull with h' | h'
            · omega
            · exact h'
          obtain ⟨-, hz⟩ := h.steps (by omega : j < n)
          exact (hz.inZone c ((hz.zoneIff c).mpr (Or.inl hc))).2.2.2.1 hc
      exact ⟨rfl, by rw [hc0]; ring, Or.inl hc0⟩
    | succ m hm ih =>
      intro hmn
      obtain ⟨i1, i2, i3⟩ := ih (by omega)
      obtain ⟨hs, hz⟩ := h.steps (by omega : m < n)
      have hn := hno (m + 1) (by omega) hmn
      have ht := hs.targetOld c hn
      refine ⟨ht.trans i1, ?_, ?_⟩
      · by_cases hc : c ∈ (x (m + 1)).zone
        · obtain ⟨a, -, -, -, e⟩ := hz.inZone c hc
          rw [e hn, a]
          simp only [drift, clockAt]
          rw [i2]
          ring
        · obtain ⟨a, -, -, e⟩ := hz.outZone c hc
          rw [e, a, i2]
      · by_cases hc : c ∈ (x (m + 1)).zone
        · rw [(hz.inZone c hc).2.2.2.2 hn, ht]
          exact not_due_within (hz.notDue c hc hn)
        · rw [(hz.outZone c hc).2.2.2, ht]
          exact i3
  obtain ⟨a, b, d⟩ := key n hk (le_refl _)
  refine ⟨a, ?_⟩
  rcases d with d | d
  · left
    rw [b] at d
    exact sub_eq_zero.mp d
  · right
    rw [b, a] at d
    exact d

end ErodeLocal
