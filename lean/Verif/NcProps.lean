import Verif.NcModel
import Verif.TimeInfoProps
import Verif.FilesProps
import Mathlib.Algebra.Order.Field.Basic
import Mathlib.Tactic.FieldSimp
import Mathlib.Tactic.Linarith
import Mathlib.Tactic.NormNum
import Mathlib.Tactic.Ring

/-!
# Properties of the netCDF output files (C132–C138)

The specification: the datetime nearest to an offset from the start (`Nearest`, `At`), its text of 19 characters, and
the centres of the cells of a grid with row 0 in the north.
-/

set_option autoImplicit false
set_option linter.unusedSectionVars false

namespace Nc

open TimeUtils TimeInfo

/-- The text `YYYY-MM-DD HH:MM:SS` of a datetime. -/
def text (d : DT) : Text := dateText d ++ ' ' :: timeText d

/-- `k` is the integer nearest to `x` (the even one if there are two). -/
def Nearest (k : ℤ) (x : ℚ) : Prop := |(k : ℚ) - x| ≤ 1 / 2 ∧ (|(k : ℚ) - x| = 1 / 2 → k % 2 = 0)

/-- `d` is the datetime `secs` seconds after `t0`, to the nearest microsecond. -/
def At (t0 : DT) (secs : ℚ) (d : DT) : Prop := d.Ok ∧ Nearest (d.abs - t0.abs) (secs * 1000000)

/-- The units with a fixed number of seconds. -/
def unitTable : List (String × ℚ) := [("weeks", 604800), ("days", 86400), ("hours", 3600), ("minutes", 60), ("seconds", 1)]

/-! ## Lemmas on datetimes -/

theorem nearest_unique {k l : ℤ} {x : ℚ} (hk : Nearest k x) (hl : Nearest l x) : k = l := by
  obtain ⟨h1, h2⟩ := hk
  obtain ⟨h3, h4⟩ := hl
  have a1 := abs_le.1 h1
  have a2 := abs_le.1 h3
  by_contra hne
  rcases lt_or_gt_of_ne hne with h | h
  · have : (k : ℚ) + 1 ≤ l := by exact_mod_cast h
    have e1 : (k : ℚ) - x = -(1 / 2) := by linarith
    have e2 : (l : ℚ) - x = 1 / 2 := by linarith
    have p1 := h2 (by rw [e1, abs_neg, abs_of_pos (by norm_num)])
    have p2 := h4 (by rw [e2, abs_of_pos (by norm_num)])
    have : (l : ℚ) = k + 1 := by linarith
    have : l = k + 1 := by exact_mod_cast this
    omega
  · have : (l : ℚ) + 1 ≤ k := by exact_mod_cast h
    have e1 : (l : ℚ) - x = -(1 / 2) := by linarith
    have e2 : (k : ℚ) - x = 1 / 2 := by linarith
    have p1 := h4 (by rw [e1, abs_neg, abs_of_pos (by norm_num)])
    have p2 := h2 (by rw [e2, abs_of_pos (by norm_num)])
    have : (k : ℚ) = l + 1 := by linarith
    have : k = l + 1 := by exact_mod_cast this
    omega

/-- What the time library does with an offset: it gives the datetime at the offset, or fails if there is none. -/
theorem current_spec (t0 : DT) (h0 : Civil t0) (t s : ℚ) (units : String) (hu : (units, s) ∈ unitTable) :
    (∃ d, At t0 (t * s) d ∧ getCurrentDatetime (text t0) t units = .ok d) ∨
    ((∀ d, ¬ At t0 (t * s) d) ∧
      getCurrentDatetime (text t0) t units = .error "OverflowError: date value out of range") := by
  obtain ⟨k, h1, h2, h3⟩ := C42_any_offset t0 t s units hu
  have hg : getCurrentDatetime (text t0) t units = fromTimeSince t0 t units := by
    rw [getCurrentDatetime, text, fromOneStr_civil t0 h0]
  rw [hg]
  rcases h3 with ⟨d, hd, he, hf⟩ | ⟨hn, hf⟩
  · exact Or.inl ⟨d, ⟨hd, by rw [he]; exact ⟨h1, h2⟩⟩, hf⟩
  · refine Or.inr ⟨fun d hd => hn d hd.1 (nearest_unique hd.2 ⟨h1, h2⟩), hf⟩

/-- The datetime in whole seconds. -/
def cutSecond (d : DT) : DT := { d with us := d.us / 1000000 * 1000000 }

theorem civil_cut (d : DT) (hd : d.Ok) : Civil (cutSecond d) := by
  obtain ⟨h1, h2⟩ := hd
  refine ⟨⟨h1, ?_⟩, ?_⟩
  · simp only [cutSecond]; omega
  · simp only [cutSecond]; omega

theorem text_cut (d : DT) : text (cutSecond d) = text d := by
  have : d.us / 1000000 * 1000000 / 1000000 = d.us / 1000000 := by omega
  simp only [text, dateText, timeText, cutSecond, this]

theorem text_length (d : DT) (hd : d.Ok) : (text d).length = 19 := by
  obtain ⟨⟨hy1, hy2, hm1, hm2, hd1, hd2⟩, hu⟩ := hd
  have hu' : d.us < 86400000000 := hu
  have hdm : daysInMonth d.year d.month ≤ 31 := by
    have := daysInMonth_le d.year d.month
    omega
  have l1 := length_pad d.year 4 (by decide) (by omega)
  have l2 := length_pad d.month 2 (by decide) (by omega)
  have l3 := length_pad d.day 2 (by decide) (by omega)
  have l4 := length_pad (d.us / 1000000 / 3600) 2 (by decide) (by omega)
  have l5 := length_pad (d.us / 1000000 / 60 % 60) 2 (by decide) (by omega)
  have l6 := length_pad (d.us / 1000000 % 60) 2 (by decide) (by omega)
  simp only [text, dateText, timeText, List.length_append, List.length_cons, l1, l2, l3, l4, l5, l6]

theorem take_strDT (d : DT) (hd : d.Ok) : (strDT d).take 19 = text d := by
  have : strDT d = text d ++ (if d.us % 1000000 = 0 then [] else '.' :: pad (d.us % 1000000) 6) := by
    simp only [strDT, text, dateText, timeText]
  rw [this, List.take_append_of_le_length (by rw [text_length d hd]), List.take_of_length_le (by rw [text_length d hd])]

/-- Datetimes with the same text are less than a second apart. -/
theorem close_of_text (a b : DT) (ha : a.Ok) (hb : b.Ok) (h : text a = text b) : |a.abs - b.abs| < 1000000 := by
  have e1 := fromOneStr_civil _ (civil_cut a ha)
  have e2 := fromOneStr_civil _ (civil_cut b hb)
  have t1 := text_cut a
  have t2 := text_cut b
  unfold text at t1 t2 h
  rw [t1, h] at e1
  rw [t2, e1] at e2
  injection e2 with e2
  have f1 := congrArg DT.year e2
  have f2 := congrArg DT.month e2
  have f3 := congrArg DT.day e2
  have f4 := congrArg DT.us e2
  simp only [cutSecond] at f1 f2 f3 f4
  simp only [DT.abs, f1, f2, f3]
  rw [abs_lt]
  omega

/-! ## C132: grids appended to a file -/

section stack

variable {G : Type*}

/-- A history of appends of grids with their times; an append that fails is reported and the program goes on.  The
result is the file and the list of the appends that were accepted. -/
def appends (f : Stack G) : List (G × ℚ) → Stack G × List (G × ℚ)
  | [] => (f, [])
  | p :: ps =>
    match addGrid f p.1 (some p.2) none none with
    | (f', none) => ((appends f' ps).1, p :: (appends f' ps).2)
    | (f', some _) => appends f' ps

/-- The file holds exactly the grids `ok`, in order, with their times and datetimes (`s` seconds per unit). -/
structure Holds (f : Stack G) (t0 : DT) (s : ℚ) (ok : List (G × ℚ)) : Prop where
  count : f.count = ok.length
  len : f.len = ok.length ∨ f.len = ok.length + 1
  entry : ∀ (k : ℕ) (g : G) (t : ℚ), ok[k]? = some (g, t) →
    getGrid f k = .ok (some g) ∧ f.time k = some t ∧ ∃ d, At t0 (t * s) d ∧ f.datetime k = some (text d)
  rest : ∀ k, ok.length ≤ k → f.data k = none ∧ f.datetime k = none

theorem holds_step (f : Stack G) (t0 : DT) (h0 : Civil t0) (s : ℚ) (hs : f.start = text t0)
    (hu : (f.units, s) ∈ unitTable) (ok : List (G × ℚ)) (hi : f.index = ok.length) (h : Holds f t0 s ok) (p : G × ℚ) :
    ((∃ d, At t0 (p.2 * s) d) ∧ ∃ f', addGrid f p.1 (some p.2) none none = (f', none) ∧ f'.start = f.start ∧
        f'.units = f.units ∧ f'.index = (ok ++ [p]).length ∧ Holds f' t0 s (ok ++ [p]) ∧ f'.len = ok.length + 1) ∨
    ((∀ d, ¬ At t0 (p.2 * s) d) ∧ ∃ f' e, addGrid f p.1 (some p.2) none none = (f', some e) ∧ f'.start = f.start ∧
        f'.units = f.units ∧ f'.index = ok.length ∧ Holds f' t0 s ok) := by
  obtain ⟨hc, hl, he, hr⟩ := h
  have hlt : ∀ (k : ℕ) (g : G) (t : ℚ), ok[k]? = some (g, t) → k < ok.length := fun k g t hk =>
    (List.getElem?_eq_some_iff.1 hk).1
  rcases current_spec t0 h0 p.2 s f.units hu with ⟨d, hd, e⟩ | ⟨hn, e⟩
  · left
    refine ⟨⟨d, hd⟩, ?_⟩
    have hadd : addGrid f p.1 (some p.2) none none =
        ({ f with len := max f.len (f.index + 1), time := put f.time f.index p.2,
                  datetime := put f.datetime f.index (text d), count := f.count + 1,
                  data := put f.data f.index p.1, index := f.index + 1 }, none) := by
      simp only [addGrid, Option.getD_none, Option.getD_some, hs, e, take_strDT d hd.1]
    refine ⟨_, hadd, rfl, rfl, by simp [hi], ?_, by simp only [hi]; omega⟩
    refine ⟨by simp [hc], ?_, ?_, ?_⟩
    · left; simp only [hi, List.length_append, List.length_singleton]; omega
    · intro k g t hk
      by_cases hkl : k < ok.length
      · rw [List.getElem?_append_left hkl] at hk
        obtain ⟨e1, e2, d', e3, e4⟩ := he k g t hk
        have hne : k ≠ f.index := by omega
        rw [getGrid] at e1
        split at e1
        · injection e1 with e1
          refine ⟨?_, by simp only [put, if_neg hne, e2], d', e3, by simp only [put, if_neg hne, e4]⟩
          rw [getGrid, if_pos (by simp only; omega)]
          simp only [put, if_neg hne, e1]
        · cases e1
      · have hk2 : k = ok.length := by
          have := (List.getElem?_eq_some_iff.1 hk).1
          simp only [List.length_append, List.length_singleton] at this
          omega
        subst hk2
        rw [List.getElem?_append_right le_rfl, Nat.sub_self] at hk
        simp only [List.getElem?_cons_zero, Option.some.injEq] at hk
        subst hk
        refine ⟨?_, by simp [put, hi], d, hd, by simp [put, hi]⟩
        rw [getGrid, if_pos (by simp only [hi]; omega)]
        simp [put, hi]
    · intro k hk
      simp only [List.length_append, List.length_singleton] at hk
      have hne : k ≠ f.index := by omega
      simp only [put, if_neg hne]
      exact hr k (by omega)
  · right
    refine ⟨hn, ?_⟩
    have hadd : addGrid f p.1 (some p.2) none none =
        ({ f with len := max f.len (f.index + 1), time := put f.time f.index p.2 },
          some "OverflowError: date value out of range") := by
      simp only [addGrid, Option.getD_none, Option.getD_some, hs, e]
    refine ⟨_, _, hadd, rfl, rfl, hi, ?_⟩
    refine ⟨hc, by right; simp only [hi]; omega, ?_, hr⟩
    intro k g t hk
    obtain ⟨e1, e2, d', e3, e4⟩ := he k g t hk
    have hne : k ≠ f.index := by have := hlt k g t hk; omega
    rw [getGrid] at e1
    split at e1
    · injection e1 with e1
      refine ⟨?_, by simp only [put, if_neg hne, e2], d', e3, e4⟩
      rw [getGrid, if_pos (by simp only; omega)]
      simp only [e1]
    · cases e1

open Classical in
theorem appends_holds (t0 : DT) (h0 : Civil t0) (s : ℚ) (ps : List (G × ℚ)) :
    ∀ (f : Stack G) (ok : List (G × ℚ)), f.start = text t0 → (f.units, s) ∈ unitTable → f.index = ok.length →
      Holds f t0 s ok →
      Holds (appends f ps).1 t0 s (ok ++ (appends f ps).2) ∧
      (appends f ps).2 = ps.filter (fun p => decide (∃ d, At t0 (p.2 * s) d)) ∧
      (appends f ps).1.index = (ok ++ (appends f ps).2).length ∧ (appends f ps).1.start = f.start ∧
      (appends f ps).1.units = f.units := by
  induction ps with
  | nil => intro f ok hs hu hi h; simpa [appends, hi] using h
  | cons p ps ih =>
    intro f ok hs hu hi h
    rcases holds_step f t0 h0 s hs hu ok hi h p with ⟨hd, f', e, s1, s2, s3, s4, -⟩ | ⟨hn, f', err, e, s1, s2, s3, s4⟩
    · obtain ⟨g1, g2, g3, g4, g5⟩ := ih f' (ok ++ [p]) (s1.trans hs) (by rw [s2]; exact hu) s3 s4
      simp only [appends, e]
      rw [List.filter_cons, if_pos (by simpa using hd)]
      refine ⟨by simpa using g1, by rw [g2], by simpa using g3, g4.trans s1, g5.trans s2⟩
    · obtain ⟨g1, g2, g3, g4, g5⟩ := ih f' ok (s1.trans hs) (by rw [s2]; exact hu) s3 s4
      simp only [appends, e]
      rw [List.filter_cons, if_neg (by simpa using hn)]
      exact ⟨g1, g2, g3, g4.trans s1, g5.trans s2⟩

theorem fresh_holds (t0 : DT) (s : ℚ) (units : String) : Holds (Stack.fresh G units (text t0)) t0 s [] :=
  ⟨rfl, Or.inl rfl, fun k g t h => by simp at h, fun k _ => ⟨rfl, rfl⟩⟩

open Classical in
/-- **C132**.  Whatever is appended to a new file, in whatever number and with whatever times (in the units of the file,
which may be weeks, days, hours, minutes or seconds): an append is refused exactly when there is no datetime at its
time, and the file then holds exactly the accepted grids, in the order of the appends, each with its own time and with
the text of the datetime at that time after the start of the run; the counter of grids is their number. -/
theorem C132_appended (t0 : DT) (h0 : Civil t0) (units : String) (s : ℚ) (hu : (units, s) ∈ unitTable)
    (ps : List (G × ℚ)) :
    (appends (Stack.fresh G units (text t0)) ps).2 = ps.filter (fun p => decide (∃ d, At t0 (p.2 * s) d)) ∧
    Holds (appends (Stack.fresh G units (text t0)) ps).1 t0 s (appends (Stack.fresh G units (text t0)) ps).2 := by
  obtain ⟨g1, g2, -⟩ := appends_holds t0 h0 s ps (Stack.fresh G units (text t0)) [] rfl hu rfl (fresh_holds t0 s units)
  exact ⟨g2, by simpa using g1⟩

/-- **C132** (length).  If every append is accepted, the file has exactly as many entries as there were appends, and
reading beyond them fails. -/
theorem C132_length (t0 : DT) (h0 : Civil t0) (units : String) (s : ℚ) (hu : (units, s) ∈ unitTable)
    (ps : List (G × ℚ)) (hok : ∀ p ∈ ps, ∃ d, At t0 (p.2 * s) d) :
    (appends (Stack.fresh G units (text t0)) ps).1.len = ps.length ∧
    ∀ k, ps.length ≤ k → getGrid (appends (Stack.fresh G units (text t0)) ps).1 k = .error "IndexError" := by
  have key : ∀ (ps : List (G × ℚ)) (f : Stack G) (ok : List (G × ℚ)), f.start = text t0 → (f.units, s) ∈ unitTable →
      f.index = ok.length → Holds f t0 s ok → f.len = ok.length → (∀ p ∈ ps, ∃ d, At t0 (p.2 * s) d) →
      (appends f ps).1.len = ok.length + ps.length := by
    intro ps
    induction ps with
    | nil => intro f ok _ _ _ _ hl _; simpa [appends] using hl
    | cons p ps ih =>
      intro f ok hs hu hi h hl hok
      rcases holds_step f t0 h0 s hs hu ok hi h p with ⟨hd, f', e, s1, s2, s3, s4, s5⟩ | ⟨hn, -⟩
      · have := ih f' (ok ++ [p]) (s1.trans hs) (by rw [s2]; exact hu) s3 s4 (by simp [s5])
          (fun q hq => hok q (List.mem_cons_of_mem _ hq))
        simp only [appends, e, this, List.length_append, List.length_cons, List.length_nil]
        omega
      · obtain ⟨d, hd⟩ := hok p (by simp)
        exact absurd hd (hn d)
  have hl := key ps (Stack.fresh G units (text t0)) [] rfl hu rfl (fresh_holds t0 s units) rfl hok
  simp only [List.length_nil, Nat.zero_add] at hl
  exact ⟨hl, fun k hk => by rw [getGrid, if_neg (by omega)]⟩

/-- **C132** (no time).  A grid appended without a time gets its index as its time, in the units of the file, and the
datetime that belongs to it. -/
theorem C132_no_time (f : Stack G) (g : G) : addGrid f g none none none = addGrid f g (some (f.index : ℚ)) none none := rfl

example : (appends (Stack.fresh ℕ "hours" (text ⟨2015, 10, 1, 0⟩)) [(5, 1), (6, 100000000000), (7, 36)]).1.datetime 1 =
    some "2015-10-02 12:00:00".toList := by decide +kernel
example : (appends (Stack.fresh ℕ "hours" (text ⟨2015, 10, 1, 0⟩)) [(5, 1), (6, 100000000000), (7, 36)]).2 =
    [(5, 1), (7, 36)] := by decide +kernel

/-! ## C133: overwriting a grid -/

/-- **C133** (what is overwritten).  Writing to an entry that exists replaces its grid, time and datetime and no others,
and the file does not get longer. -/
theorem C133_overwrite_partial (f f' : Stack G) (g : G) (t : ℚ) (j : ℕ) (hj : j < f.len)
    (h : addGrid f g (some t) none (some j) = (f', none)) :
    getGrid f' j = .ok (some g) ∧ f'.time j = some t ∧ f'.len = f.len ∧
    ∀ k, k ≠ j → getGrid f' k = getGrid f k ∧ f'.time k = f.time k ∧ f'.datetime k = f.datetime k := by
  simp only [addGrid, Option.getD_none, Option.getD_some] at h
  split at h
  · simp at h
  · simp only [Prod.mk.injEq, and_true] at h
    subst h
    have hm : max f.len (j + 1) = f.len := by omega
    refine ⟨by simp [getGrid, put, hj], by simp [put], hm, fun k hk => ?_⟩
    simp [getGrid, put, hk, hm]

/-- **C133** (the next append).  In every file of `n` appended grids: after one of them is overwritten, the next grid
appended goes to entry `n + 1`, entry `n` exists but was never written, and the counter of grids is `n + 2` although
only `n + 1` entries hold a grid. -/
theorem C133_gap_violated (t0 : DT) (h0 : Civil t0) (units : String) (s : ℚ) (hu : (units, s) ∈ unitTable)
    (ps : List (G × ℚ)) (hok : ∀ p ∈ ps, ∃ d, At t0 (p.2 * s) d) (j : ℕ) (hj : j < ps.length) (g g' : G) (t t' : ℚ)
    (ht : ∃ d, At t0 (t * s) d) (ht' : ∃ d, At t0 (t' * s) d) :
    ∃ f1 f2, addGrid (appends (Stack.fresh G units (text t0)) ps).1 g (some t) none (some j) = (f1, none) ∧
      addGrid f1 g' (some t') none none = (f2, none) ∧
      f2.len = ps.length + 2 ∧ getGrid f2 ps.length = .ok none ∧ f2.datetime ps.length = none ∧
      getGrid f2 (ps.length + 1) = .ok (some g') ∧ f2.count = ps.length + 2 := by
  classical
  obtain ⟨hl, -⟩ := C132_length t0 h0 units s hu ps hok
  obtain ⟨g1, g2, g3, g4, g5⟩ :=
    appends_holds t0 h0 s ps (Stack.fresh G units (text t0)) [] rfl hu rfl (fresh_holds t0 s units)
  have hall : (appends (Stack.fresh G units (text t0)) ps).2 = ps := by
    rw [g2, List.filter_eq_self]
    intro p hp
    simpa using hok p hp
  rw [List.nil_append, hall] at g1 g3
  generalize (appends (Stack.fresh G units (text t0)) ps).1 = f at *
  have hs : f.start = text t0 := g4
  have hun : f.units = units := g5
  obtain ⟨d, hd, e⟩ := (current_spec t0 h0 t s units hu).resolve_right (fun ⟨hn, _⟩ => ht.elim hn)
  obtain ⟨d', hd', e'⟩ := (current_spec t0 h0 t' s units hu).resolve_right (fun ⟨hn, _⟩ => ht'.elim hn)
  have k1 : addGrid f g (some t) none (some j) =
      ({ f with len := max f.len (j + 1), time := put f.time j t, datetime := put f.datetime j ((strDT d).take 19),
                count := f.count + 1, data := put f.data j g, index := f.index + 1 }, none) := by
    simp only [addGrid, Option.getD_none, Option.getD_some, hs, hun, e]
  let f2 : Stack G :=
    { f with len := max (max f.len (j + 1)) (f.index + 1 + 1), time := put (put f.time j t) (f.index + 1) t'
             datetime := put (put f.datetime j ((strDT d).take 19)) (f.index + 1) ((strDT d').take 19)
             count := f.count + 1 + 1, data := put (put f.data j g) (f.index + 1) g', index := f.index + 1 + 1 }
  refine ⟨_, f2, k1, ?_⟩
  · have n1 : ps.length ≠ ps.length + 1 := by omega
    have n2 : ps.length ≠ j := by omega
    have r := g1.rest ps.length le_rfl
    have hlen : f2.len = ps.length + 2 := by simp only [f2, hl, g3]; omega
    refine ⟨by simp only [addGrid, Option.getD_none, Option.getD_some, hs, hun, e', f2], hlen, ?_, ?_, ?_, ?_⟩
    · rw [getGrid, if_pos (by omega)]
      simp only [f2, put, g3, if_neg n1, if_neg n2, r.1]
    · simp only [f2, put, g3, if_neg n1, if_neg n2, r.2]
    · rw [getGrid, if_pos (by omega)]
      simp only [f2, put, g3, if_true]
    · simp only [f2, g1.count]

end stack

/-! ## C134: the coordinates of the cells -/

section coords

variable {K : Type*} [Field K] [LinearOrder K] [IsStrictOrderedRing K]

/-- A grid of `ncols` times `nrows` cells of the given sizes (in arc seconds) between its edges (in degrees). -/
structure Consistent (g : Grid K) : Prop where
  x_pos : 0 < g.xres
  y_pos : 0 < g.yres
  width : g.east = g.west + g.ncols * (g.xres / 3600)
  height : g.north = g.south + g.nrows * (g.yres / 3600)

/-- The longitude of the centres of column `j`. -/
def centreLon (g : Grid K) (j : ℕ) : K := g.west + (j + 1 / 2) * (g.xres / 3600)

/-- The latitude of the centres of row `i`; row 0 is the northernmost. -/
def centreLat (g : Grid K) (i : ℕ) : K := g.north - (i + 1 / 2) * (g.yres / 3600)

theorem linspace_eq (a : K) (r : K) (n j : ℕ) (h1 : 1 < n) :
    linspace a (a + n * r) n j = a + j * (n * r / (n - 1)) := by
  rw [linspace, if_neg (by omega)]
  ring

/-- **C134** (columns).  The entry of `X` for a column is the longitude of its cells' centres only for the middle
column of an odd number of at least three columns; for every other column it is not. -/
theorem C134_columns_violated (g : Grid K) (h : Consistent g) (j : ℕ) (hj : j < g.ncols) :
    xVector g j = centreLon g j ↔ 1 < g.ncols ∧ 2 * j + 1 = g.ncols := by
  have hr : 0 < g.xres / 3600 := div_pos h.x_pos (by norm_num)
  rw [xVector, centreLon, h.width]
  by_cases hn : g.ncols = 1
  · rw [linspace, if_pos hn]
    have : j = 0 := by omega
    subst this
    constructor
    · intro e
      simp only [Nat.cast_zero, zero_add] at e
      linarith
    · rintro ⟨h1, -⟩; omega
  · have h1 : 1 < g.ncols := by omega
    rw [linspace_eq _ _ _ _ h1]
    have hpos : (0 : K) < (g.ncols : K) - 1 := by
      have : (1 : K) < g.ncols := by exact_mod_cast h1
      linarith
    have hne : (g.ncols : K) - 1 ≠ 0 := hpos.ne'
    have key : g.west + (j : K) * ((g.ncols : K) * (g.xres / 3600) / ((g.ncols : K) - 1)) -
        (g.west + ((j : K) + 1 / 2) * (g.xres / 3600)) =
        (2 * (j : K) + 1 - g.ncols) * (g.xres / 3600) / (2 * ((g.ncols : K) - 1)) := by
      field_simp
      ring
    constructor
    · intro e
      refine ⟨h1, ?_⟩
      rw [sub_eq_zero.2 e] at key
      have := (div_eq_zero_iff.1 key.symm).resolve_right (by positivity)
      have := (mul_eq_zero.1 this).resolve_right hr.ne'
      have : 2 * (j : K) + 1 = g.ncols := by linarith
      exact_mod_cast this
    · rintro ⟨-, e⟩
      have : 2 * (j : K) + 1 = g.ncols := by exact_mod_cast e
      rw [← sub_eq_zero, key, this]
      simp

/-- **C134** (rows).  The entry of `Y` for a row is the latitude of its cells' centres only for the middle row of an odd
number of at least three rows. -/
theorem C134_rows_violated (g : Grid K) (h : Consistent g) (i : ℕ) (hi : i < g.nrows) :
    yVector g i = centreLat g i ↔ 1 < g.nrows ∧ 2 * i + 1 = g.nrows := by
  have hr : 0 < g.yres / 3600 := div_pos h.y_pos (by norm_num)
  rw [yVector, centreLat, h.height]
  by_cases hn : g.nrows = 1
  · rw [linspace, if_pos hn, hn]
    have : i = 0 := by omega
    subst this
    constructor
    · intro e
      simp only [Nat.cast_zero, zero_add, Nat.cast_one] at e
      linarith
    · rintro ⟨h1, -⟩; omega
  · have h1 : 1 < g.nrows := by omega
    rw [linspace_eq _ _ _ _ h1]
    have h1' : (1 : K) < g.nrows := by exact_mod_cast h1
    have hpos : (0 : K) < (g.nrows : K) - 1 := by linarith
    have hne : (g.nrows : K) - 1 ≠ 0 := hpos.ne'
    have key : g.south + (i : K) * ((g.nrows : K) * (g.yres / 3600) / ((g.nrows : K) - 1)) -
        (g.south + g.nrows * (g.yres / 3600) - ((i : K) + 1 / 2) * (g.yres / 3600)) =
        (2 * (i : K) + 1 - g.nrows) * (2 * g.nrows - 1) * (g.yres / 3600) / (2 * ((g.nrows : K) - 1)) := by
      field_simp
      ring
    constructor
    · intro e
      refine ⟨h1, ?_⟩
      rw [sub_eq_zero.2 e] at key
      have := (div_eq_zero_iff.1 key.symm).resolve_right (by positivity)
      have := (mul_eq_zero.1 this).resolve_right hr.ne'
      have := (mul_eq_zero.1 this).resolve_right (by linarith)
      have : 2 * (i : K) + 1 = g.nrows := by linarith
      exact_mod_cast this
    · rintro ⟨-, e⟩
      have : 2 * (i : K) + 1 = g.nrows := by exact_mod_cast e
      rw [← sub_eq_zero, key, this]
      simp

/-- **C134** (upside down).  For any two rows, the more northern one has the smaller latitude in `Y`. -/
theorem C134_upside_down_violated (g : Grid K) (h : Consistent g) (i k : ℕ) (hik : i < k) (hk : k < g.nrows) :
    centreLat g k < centreLat g i ∧ yVector g i < yVector g k := by
  have hr : 0 < g.yres / 3600 := div_pos h.y_pos (by norm_num)
  have hik' : (i : K) < k := by exact_mod_cast hik
  have h1 : 1 < g.nrows := by omega
  have h1' : (1 : K) < g.nrows := by exact_mod_cast h1
  constructor
  · simp only [centreLat]
    have := mul_lt_mul_of_pos_right hik' hr
    linarith
  · rw [yVector, yVector, h.height, linspace_eq _ _ _ _ h1, linspace_eq _ _ _ _ h1]
    have hp : (0 : K) < (g.nrows : K) * (g.yres / 3600) / ((g.nrows : K) - 1) :=
      div_pos (mul_pos (by linarith) hr) (by linarith)
    have := mul_lt_mul_of_pos_right hik' hp
    linarith

/-- **C134** (what holds).  The entries of `X` run from the western to the eastern edge, and none is off by more than
half a cell. -/
theorem C134_columns_partial (g : Grid K) (h : Consistent g) (j : ℕ) (hj : j < g.ncols) :
    |xVector g j - centreLon g j| ≤ g.xres / 3600 / 2 ∧ g.west ≤ xVector g j ∧ xVector g j ≤ g.east ∧
    xVector g 0 = g.west ∧ (1 < g.ncols → xVector g (g.ncols - 1) = g.east) := by
  have hr : 0 < g.xres / 3600 := div_pos h.x_pos (by norm_num)
  by_cases hn : g.ncols = 1
  · have : j = 0 := by omega
    subst this
    have hx : ∀ j, xVector g j = g.west := fun j => by rw [xVector, linspace, if_pos hn]
    rw [centreLon, hx, hx]
    refine ⟨?_, le_rfl, ?_, rfl, fun h1 => by omega⟩
    · rw [abs_le]; constructor <;> simp <;> linarith
    · rw [h.width, hn]; simp only [Nat.cast_one]; linarith
  · have h1 : 1 < g.ncols := by omega
    have h1' : (1 : K) < g.ncols := by exact_mod_cast h1
    have hpos : (0 : K) < (g.ncols : K) - 1 := by linarith
    have hne : (g.ncols : K) - 1 ≠ 0 := hpos.ne'
    have hj' : (j : K) + 1 ≤ g.ncols := by exact_mod_cast hj
    have hj0 : (0 : K) ≤ j := Nat.cast_nonneg j
    simp only [xVector, centreLon, h.width, linspace_eq _ _ _ _ h1]
    have q0 : (0 : K) ≤ (j : K) / ((g.ncols : K) - 1) := div_nonneg hj0 hpos.le
    have q1 : (j : K) / ((g.ncols : K) - 1) ≤ 1 := (div_le_one hpos).2 (by linarith)
    have e1 : (j : K) * ((g.ncols : K) * (g.xres / 3600) / ((g.ncols : K) - 1)) =
        (j : K) / ((g.ncols : K) - 1) * ((g.ncols : K) * (g.xres / 3600)) := by ring
    have e2 : g.west + (j : K) * ((g.ncols : K) * (g.xres / 3600) / ((g.ncols : K) - 1)) -
        (g.west + ((j : K) + 1 / 2) * (g.xres / 3600)) =
        ((j : K) / ((g.ncols : K) - 1) - 1 / 2) * (g.xres / 3600) := by
      field_simp
      ring
    have hw : (0 : K) < (g.ncols : K) * (g.xres / 3600) := mul_pos (by linarith) hr
    refine ⟨?_, ?_, ?_, by simp, fun _ => ?_⟩
    · rw [e2, abs_le]
      constructor <;> nlinarith
    · rw [e1]; nlinarith
    · rw [e1]; nlinarith
    · rw [Nat.cast_sub h1.le, Nat.cast_one]
      field_simp

/-- A grid of three columns and four rows, in degrees (cells of one degree). -/
def exampleGrid : Grid ℚ := ⟨3, 4, 3600, 3600, 10, 13, 40, 44⟩

example : Consistent exampleGrid := ⟨by decide +kernel, by decide +kernel, by decide +kernel, by decide +kernel⟩
example : yVector exampleGrid 0 = 40 ∧ centreLat exampleGrid 0 = 43 + 1 / 2 := by decide +kernel

end coords

/-! ## C135: time series at cells -/

/-- **C135** (names).  Whatever the name of the variable, also one with underscores or digits, its series for a cell
is stored under a name from which the cell and the variable are recovered. -/
theorem C135_names (v : Text) (row col : ℕ) :
    cellOf (vname v row col) = .ok (row, col) ∧ shortName (vname v row col) = v := by
  have hr : '_' ∉ natStr row := notMem_of_digits (isDigit_natStr row) '_' (by decide)
  have hc : '_' ∉ natStr col := notMem_of_digits (isDigit_natStr col) '_' (by decide)
  constructor
  · have hsplit : ∀ w : Text, ∃ l, splitOn '_' (w ++ '_' :: (natStr row ++ '_' :: natStr col)) =
        l ++ [natStr row, natStr col] := by
      intro w
      induction w with
      | nil =>
        refine ⟨[[]], ?_⟩
        have := splitOn_cons '_' [] (natStr row ++ '_' :: natStr col) (by simp)
        rw [this, splitOn_cons '_' _ _ hr, splitOn_end '_' _ hc]
        rfl
      | cons x w ih =>
        obtain ⟨l, hl⟩ := ih
        rw [List.cons_append, splitOn]
        split
        · exact ⟨[] :: l, by rw [hl]; rfl⟩
        · rw [hl]
          cases l with
          | nil =>
            exfalso
            have hlen := congrArg List.length hl
            have : ∀ u : Text, (splitOn '_' u).length = u.count '_' + 1 := by
              intro u
              induction u with
              | nil => rfl
              | cons y u ihu =>
                rw [splitOn]
                split
                · next hy => subst hy; simp [ihu]
                · next hy =>
                  have hne : splitOn '_' u ≠ [] := by intro h0; rw [h0] at ihu; simp at ihu
                  cases hsu : splitOn '_' u with
                  | nil => exact absurd hsu hne
                  | cons a b =>
                    rw [hsu] at ihu
                    simp only [List.length_cons] at ihu ⊢
                    rw [List.count_cons_of_ne hy]
                    exact ihu
            rw [this] at hlen
            simp only [List.nil_append, List.length_cons, List.length_nil, List.count_append, List.count_cons_self] at hlen
            omega
          | cons a b => exact ⟨(x :: a) :: b, rfl⟩
    obtain ⟨l, hl⟩ := hsplit v
    simp only [cellOf, vname, hl, List.reverse_append, List.reverse_cons, List.reverse_nil, List.nil_append,
      List.cons_append, parseNat_natStr]
  · have e1 : cutLast (vname v row col) = v ++ '_' :: natStr row := by
      have : vname v row col = (v ++ '_' :: natStr row) ++ '_' :: natStr col := by simp [vname]
      rw [cutLast, this, Files.rfind_append _ hc]
      simp only
      rw [List.take_left']
      rfl
    rw [shortName, e1, cutLast, Files.rfind_append _ hr]
    simp only
    rw [List.take_left']
    rfl

/-- **C135** (no clash).  Different cells, or different variables, have different names. -/
theorem C135_no_clash (v v' : Text) (p p' : ℕ × ℕ) (h : vname v p.1 p.2 = vname v' p'.1 p'.2) : v = v' ∧ p = p' := by
  have h1 := (C135_names v p.1 p.2)
  have h2 := (C135_names v' p'.1 p'.2)
  rw [h] at h1
  refine ⟨h1.2.symm.trans h2.2, ?_⟩
  have := h1.1.symm.trans h2.1
  injection this with this

/-- **C135** (place).  The longitude and the latitude stored for a cell are those of its centre. -/
theorem C135_place {K : Type*} [Field K] [LinearOrder K] [IsStrictOrderedRing K] (g : Grid K) (h : Consistent g)
    (row col : ℕ) : seriesLon g col = centreLon g col ∧ seriesLat g row = centreLat g row := by
  refine ⟨rfl, ?_⟩
  rw [seriesLat, centreLat, h.height]
  ring

theorem createAll_ok (v : Text) (ids : List (ℕ × ℕ)) :
    ∀ names : List Text, (∃ r, createAll names (ids.map fun p => vname v p.1 p.2) = .ok r) ↔
      ids.Nodup ∧ ∀ p ∈ ids, vname v p.1 p.2 ∉ names := by
  induction ids with
  | nil => intro names; simp [createAll]
  | cons p ids ih =>
    intro names
    simp only [List.map_cons, createAll, (C135_names v p.1 p.2).1]
    by_cases hp : vname v p.1 p.2 ∈ names
    · simp [hp]
    · rw [if_neg hp, ih]
      simp only [List.nodup_cons, List.mem_append, List.mem_cons, List.not_mem_nil, or_false, not_or,
        forall_eq_or_imp]
      constructor
      · rintro ⟨h1, h2⟩
        refine ⟨⟨fun hm => (h2 p hm).2 rfl, h1⟩, hp, fun q hq => (h2 q hq).1⟩
      · rintro ⟨⟨h1, h2⟩, -, h3⟩
        refine ⟨h2, fun q hq => ⟨h3 q hq, fun e => ?_⟩⟩
        have := (C135_no_clash _ _ _ _ e).2
        subst this
        exact h1 hq

theorem vname_reserved (v : Text) (p : ℕ × ℕ) : vname v p.1 p.2 ∉ ["time".toList, "datetime".toList] := by
  have : '_' ∈ vname v p.1 p.2 := by simp [vname]
  intro h
  simp only [List.mem_cons, List.not_mem_nil, or_false] at h
  rcases h with h | h <;> · rw [h] at this; revert this; decide

/-- **C135** (opening).  A file for the series at some cells can be made exactly when no cell is listed twice. -/
theorem C135_open (V : Type*) (v : Text) (ids : List (ℕ × ℕ)) (units : String) (start : Text) :
    (∃ f, openSeries V v ids units start = .ok f) ↔ ids.Nodup := by
  have h := createAll_ok v ids ["time".toList, "datetime".toList]
  have hres : ∀ p ∈ ids, vname v p.1 p.2 ∉ ["time".toList, "datetime".toList] := fun p _ => vname_reserved v p
  rw [openSeries]
  cases hc : createAll ["time".toList, "datetime".toList] (ids.map fun p => vname v p.1 p.2) with
  | error e =>
    simp only [reduceCtorEq, exists_false, false_iff]
    intro hn
    obtain ⟨r, hr⟩ := h.2 ⟨hn, hres⟩
    rw [hc] at hr
    cases hr
  | ok r =>
    simp only [Except.ok.injEq, exists_eq', true_iff]
    exact (h.1 ⟨r, hc⟩).1

section series

variable {V : Type*}

/-- The value of a variable at a cell. -/
def Var.at : Var V → ℕ × ℕ → V
  | .scalar x, _ => x
  | .grid _ _ x, p => x p.1 p.2

/-- The variable has a value at the cell. -/
def Var.Covers : Var V → ℕ × ℕ → Prop
  | .scalar _, _ => True
  | .grid r c _, p => p.1 < r ∧ p.2 < c

theorem valuesAt_eq (var : Var V) (ids : List (ℕ × ℕ)) (h : ∀ p ∈ ids, var.Covers p) :
    valuesAt var ids = .ok (ids.map var.at) := by
  cases var with
  | scalar x => rfl
  | grid r c x =>
    rw [valuesAt, if_pos]
    · rfl
    · rw [List.all_eq_true]
      intro p hp
      simpa [Var.Covers] using h p hp

theorem putAll_spec (v : Text) (k : ℕ) (l : List ((ℕ × ℕ) × V)) :
    ∀ f : Series V, (∀ q ∈ l, vname v q.1.1 q.1.2 ∈ f.names) → (l.map Prod.fst).Nodup →
      ∃ f', putAll v k l f = (f', none) ∧ f'.units = f.units ∧ f'.start = f.start ∧ f'.index = f.index ∧
        f'.len = f.len ∧ f'.time = f.time ∧ f'.datetime = f.datetime ∧ f'.names = f.names ∧
        (∀ q ∈ l, f'.data (vname v q.1.1 q.1.2) k = some q.2 ∧
          f'.count (vname v q.1.1 q.1.2) = f.count (vname v q.1.1 q.1.2) + 1) ∧
        (∀ m i, i ≠ k → f'.data m i = f.data m i) ∧
        (∀ m, (∀ q ∈ l, vname v q.1.1 q.1.2 ≠ m) → f'.data m = f.data m ∧ f'.count m = f.count m) := by
  induction l with
  | nil => intro f _ _; exact ⟨f, rfl, rfl, rfl, rfl, rfl, rfl, rfl, rfl, by simp, fun _ _ _ => rfl, fun _ _ => ⟨rfl, rfl⟩⟩
  | cons q l ih =>
    intro f hf hn
    obtain ⟨p, x⟩ := q
    simp only [List.map_cons, List.nodup_cons] at hn
    obtain ⟨f', e, i1, i2, i3, i4, i5, i6, i7, i8, i9, i10⟩ := ih
      { f with data := fun m => if m = vname v p.1 p.2 then put (f.data m) k x else f.data m
               count := fun m => if m = vname v p.1 p.2 then f.count m + 1 else f.count m }
      (fun q hq => hf q (List.mem_cons_of_mem _ hq)) hn.2
    have hne : ∀ q ∈ l, vname v q.1.1 q.1.2 ≠ vname v p.1 p.2 := by
      intro q hq e
      have := (C135_no_clash _ _ _ _ e).2
      exact hn.1 (List.mem_map.2 ⟨q, hq, this⟩)
    refine ⟨f', ?_, i1, i2, i3, i4, i5, i6, i7, ?_, ?_, ?_⟩
    · rw [putAll, if_pos (hf (p, x) (by simp)), e]
    · intro q hq
      rcases List.mem_cons.1 hq with rfl | hq
      · obtain ⟨j1, j2⟩ := i10 (vname v p.1 p.2) hne
        constructor
        · rw [j1]; simp [put]
        · rw [j2]; simp
      · obtain ⟨j1, j2⟩ := i8 q hq
        refine ⟨j1, ?_⟩
        rw [j2]
        simp [hne q hq]
    · intro m i hi
      rw [i9 m i hi]
      show (if m = vname v p.1 p.2 then put (f.data m) k x else f.data m) i = f.data m i
      split
      · simp [put, hi]
      · rfl
    · intro m hm
      obtain ⟨j1, j2⟩ := i10 m (fun q hq => hm q (List.mem_cons_of_mem _ hq))
      have hmp : m ≠ vname v p.1 p.2 := fun e => hm (p, x) (by simp) e.symm
      constructor
      · rw [j1]; simp [hmp]
      · rw [j2]; simp [hmp]

/-- Successive calls of `add_values_at_IDs`, until one fails. -/
def saveAll (v : Text) (ids : List (ℕ × ℕ)) (f : Series V) : List (ℚ × Var V) → Series V × Option String
  | [] => (f, none)
  | (t, x) :: r =>
    match addValues f t x v ids none with
    | (f', none) => saveAll v ids f' r
    | (f', some e) => (f', some e)

/-- The file holds the values of the variables `xs` at the cells, in order. -/
structure HoldsValues (f : Series V) (v : Text) (ids : List (ℕ × ℕ)) (t0 : DT) (xs : List (ℚ × Var V)) : Prop where
  len : f.len = xs.length
  index : f.index = xs.length
  count : ∀ p ∈ ids, f.count (vname v p.1 p.2) = xs.length
  entry : ∀ (k : ℕ) (t : ℚ) (x : Var V), xs[k]? = some (t, x) →
    f.time k = some t ∧ (∃ d, At t0 (t * 60) d ∧ f.datetime k = some (text d)) ∧
    ∀ p ∈ ids, f.data (vname v p.1 p.2) k = some (x.at p)

theorem addValues_spec (v : Text) (ids : List (ℕ × ℕ)) (hids : ids.Nodup) (t0 : DT) (h0 : Civil t0) (f : Series V)
    (hs : f.start = text t0) (hnames : f.names = ids.map fun p => vname v p.1 p.2) (xs : List (ℚ × Var V))
    (h : HoldsValues f v ids t0 xs) (t : ℚ) (x : Var V) (hx : ∀ p ∈ ids, x.Covers p) (ht : ∃ d, At t0 (t * 60) d) :
    ∃ f', addValues f t x v ids none = (f', none) ∧ f'.start = f.start ∧ f'.names = f.names ∧
      HoldsValues f' v ids t0 (xs ++ [(t, x)]) := by
  obtain ⟨d, hd, e⟩ := (current_spec t0 h0 t 60 "minutes" (by simp [unitTable])).resolve_right
    (fun ⟨hn, _⟩ => ht.elim hn)
  obtain ⟨h1, h2, h3, h4⟩ := h
  have hz : (ids.zip (ids.map x.at)) = ids.map fun p => (p, x.at p) := by
    have := List.zip_map' (f := id) (g := x.at) (l := ids)
    rwa [List.map_id] at this
  obtain ⟨f', p0, p1, p2, p3, p4, p5, p6, p7, p8, p9, p10⟩ := putAll_spec v f.index (ids.map fun p => (p, x.at p))
    { f with len := max f.len (f.index + 1), time := put f.time f.index t
             datetime := put f.datetime f.index (text d) }
    (by
      intro q hq
      obtain ⟨p, hp, rfl⟩ := List.mem_map.1 hq
      simp only [hnames]
      exact List.mem_map.2 ⟨p, hp, rfl⟩)
    (by simpa [List.map_map, Function.comp_def] using hids)
  dsimp only at p1 p2 p3 p4 p5 p6 p7 p8 p9 p10
  refine ⟨{ f' with index := f.index + 1 }, ?_, p2, p7, ?_⟩
  · simp only [addValues, Option.getD_none, hs, e, valuesAt_eq x ids hx, take_strDT d hd.1, hz]
    rw [hs] at p0
    simp only [p0]
  · have hm : ∀ p ∈ ids, f'.data (vname v p.1 p.2) f.index = some (x.at p) ∧
        f'.count (vname v p.1 p.2) = f.count (vname v p.1 p.2) + 1 := fun p hp =>
      p8 (p, x.at p) (List.mem_map.2 ⟨p, hp, rfl⟩)
    refine ⟨?_, ?_, ?_, ?_⟩
    · simp only [p4, List.length_append, List.length_singleton]; omega
    · simp only [List.length_append, List.length_singleton]; omega
    · intro p hp
      simp only [(hm p hp).2, h3 p hp, List.length_append, List.length_singleton]
    · intro k t' x' hk
      by_cases hkl : k < xs.length
      · rw [List.getElem?_append_left hkl] at hk
        obtain ⟨g1, ⟨d', g2, g3⟩, g4⟩ := h4 k t' x' hk
        have hne : k ≠ f.index := by omega
        refine ⟨by simp only [p5, put, if_neg hne, g1], ⟨d', g2, by simp only [p6, put, if_neg hne, g3]⟩, fun p hp => ?_⟩
        dsimp only
        rw [p9 _ _ hne, g4 p hp]
      · have hk2 : k = xs.length := by
          have := (List.getElem?_eq_some_iff.1 hk).1
          simp only [List.length_append, List.length_singleton] at this
          omega
        subst hk2
        rw [List.getElem?_append_right le_rfl, Nat.sub_self] at hk
        simp only [List.getElem?_cons_zero, Option.some.injEq, Prod.mk.injEq] at hk
        obtain ⟨rfl, rfl⟩ := hk
        refine ⟨by simp [p5, put, h2], ⟨d, hd, by simp [p6, put, h2]⟩, fun p hp => ?_⟩
        have := (hm p hp).1
        rw [h2] at this
        exact this

/-- **C135** (values).  Any number of successive savings of a variable, grid or scalar, at a set of cells: nothing
fails, every saving is one entry, and entry `k` has the time of saving `k` in minutes, its datetime, and for every cell
the value that the variable had there at that time. -/
theorem C135_values (v : Text) (ids : List (ℕ × ℕ)) (t0 : DT) (h0 : Civil t0) (units : String) (f : Series V)
    (hf : openSeries V v ids units (text t0) = .ok f) (xs : List (ℚ × Var V))
    (hx : ∀ q ∈ xs, (∀ p ∈ ids, q.2.Covers p) ∧ ∃ d, At t0 (q.1 * 60) d) :
    ∃ f', saveAll v ids f xs = (f', none) ∧ HoldsValues f' v ids t0 xs := by
  have hids : ids.Nodup := (C135_open V v ids units (text t0)).1 ⟨f, hf⟩
  have hf0 : f.start = text t0 ∧ f.names = (ids.map fun p => vname v p.1 p.2) ∧ HoldsValues f v ids t0 [] := by
    rw [openSeries] at hf
    split at hf
    · cases hf
    · injection hf with hf
      subst hf
      exact ⟨rfl, rfl, rfl, rfl, fun _ _ => rfl, fun k t x hk => by simp at hk⟩
  have key : ∀ (xs : List (ℚ × Var V)) (f : Series V) (ys : List (ℚ × Var V)), f.start = text t0 →
      f.names = (ids.map fun p => vname v p.1 p.2) → HoldsValues f v ids t0 ys →
      (∀ q ∈ xs, (∀ p ∈ ids, q.2.Covers p) ∧ ∃ d, At t0 (q.1 * 60) d) →
      ∃ f', saveAll v ids f xs = (f', none) ∧ HoldsValues f' v ids t0 (ys ++ xs) := by
    intro xs
    induction xs with
    | nil => intro f ys _ _ h _; exact ⟨f, rfl, by simpa using h⟩
    | cons q xs ih =>
      intro f ys hs hnm h hx
      obtain ⟨t, x⟩ := q
      obtain ⟨hc, ht⟩ := hx (t, x) (by simp)
      obtain ⟨f', e, s1, s2, s3⟩ := addValues_spec v ids hids t0 h0 f hs hnm ys h t x hc ht
      obtain ⟨f'', e2, s4⟩ := ih f' (ys ++ [(t, x)]) (s1.trans hs) (s2.trans hnm) s3
        (fun q hq => hx q (List.mem_cons_of_mem _ hq))
      refine ⟨f'', ?_, by simpa using s4⟩
      simp only [saveAll, e, e2]
  simpa using key xs f [] hf0.1 hf0.2.1 hf0.2.2 hx

example : (saveAll "Q_max".toList [(1, 2), (12, 0)]
    (⟨"minutes", text ⟨2015, 10, 1, 0⟩, 0, 0, fun _ => none, fun _ => none,
      ["Q_max_1_2".toList, "Q_max_12_0".toList], fun _ _ => none, fun _ => 0⟩ : Series ℕ)
    [(0, .scalar 7), (90, .grid 20 20 fun r c => 100 * r + c)]).1.data "Q_max_12_0".toList 1 = some 1200 := by
  decide +kernel

/-! ## C136: datetimes in other units -/

/-- **C136** (series).  In a file whose units are not minutes, whatever is saved: whenever the right datetime (the time
of the entry, in the units of the file, after the start) is more than a second away from that many minutes after the
start, the text stored for the entry is not that of the right datetime. -/
theorem C136_series_violated (v : Text) (ids : List (ℕ × ℕ)) (t0 : DT) (h0 : Civil t0) (f f' : Series V)
    (hs : f.start = text t0) (t : ℚ) (x : Var V) (d : DT)
    (_hright : getCurrentDatetime f.start t f.units = .ok d) (hd : d.Ok)
    (hfar : 1000001 ≤ |(d.abs - t0.abs : ℤ) - t * 60000000|)
    (h : addValues f t x v ids none = (f', none)) : f'.datetime f.index ≠ some (text d) := by
  rcases current_spec t0 h0 t 60 "minutes" (by simp [unitTable]) with ⟨d', hd', e⟩ | ⟨-, e⟩
  · have hdt : f'.datetime f.index = some (text d') := by
      simp only [addValues, Option.getD_none, hs, e, take_strDT d' hd'.1] at h
      have hput : ∀ (l : List ((ℕ × ℕ) × V)) (k : ℕ) (a b : Series V) (o : Option String),
          putAll v k l a = (b, o) → b.datetime = a.datetime := by
        intro l k
        induction l with
        | nil => intro a b o hab; simp only [putAll, Prod.mk.injEq] at hab; rw [← hab.1]
        | cons q l ih =>
          intro a b o hab
          obtain ⟨p, y⟩ := q
          rw [putAll] at hab
          split at hab
          · have := ih _ b o hab
            exact this
          · simp only [Prod.mk.injEq] at hab; rw [← hab.1]
      split at h
      · simp at h
      · split at h
        · simp at h
        · next f3 hp =>
          simp only [Prod.mk.injEq, and_true] at h
          rw [← h]
          rw [hput _ _ _ _ _ hp]
          simp [put]
    rw [hdt]
    intro he
    injection he with he
    have hc := close_of_text d' d hd'.1 hd he
    obtain ⟨-, hn, -⟩ := hd'
    have c1 : (|d'.abs - d.abs| : ℤ) ≤ 999999 := by omega
    have c2 : |((d'.abs : ℤ) : ℚ) - d.abs| ≤ 999999 := by exact_mod_cast c1
    have a1 := abs_le.1 c2
    have a2 := abs_le.1 hn
    have : |((d.abs - t0.abs : ℤ) : ℚ) - t * 60000000| ≤ 1000000 := by
      rw [abs_le]
      push_cast at a2 ⊢
      constructor <;> linarith
    linarith
  · simp only [addValues, Option.getD_none, hs, e] at h
    simp at h

/-- **C136** (series, by unit).  So in a file in weeks, days, hours or seconds every entry with a time of one or more
has the wrong datetime. -/
theorem C136_units_violated (v : Text) (ids : List (ℕ × ℕ)) (t0 : DT) (h0 : Civil t0) (f f' : Series V)
    (hs : f.start = text t0) (s : ℚ) (hu : (f.units, s) ∈ unitTable) (hm : f.units ≠ "minutes") (t : ℚ) (ht : 1 ≤ t)
    (x : Var V) (d : DT) (hd : At t0 (t * s) d) (h : addValues f t x v ids none = (f', none)) :
    f'.datetime f.index ≠ some (text d) := by
  have hr : getCurrentDatetime f.start t f.units = .ok d := by
    rw [hs]
    rcases current_spec t0 h0 t s f.units hu with ⟨d', hd', e⟩ | ⟨hn, -⟩
    · rw [e]
      have hk := nearest_unique hd.2 hd'.2
      have habs : d.abs = d'.abs := by omega
      congr 1
      by_contra hne
      rcases before_trichotomy d d' with hb | hb | hb
      · have := (abs_lt_iff d d' hd.1 hd'.1).2 hb; omega
      · exact hne hb.symm
      · have := (abs_lt_iff d' d hd'.1 hd.1).2 hb; omega
    · exact absurd hd (hn d)
  refine C136_series_violated v ids t0 h0 f f' hs t x d hr hd.1 ?_ h
  have hs' : s ≤ 1 ∨ 3600 ≤ s := by
    simp only [unitTable, List.mem_cons, Prod.mk.injEq, List.not_mem_nil, or_false] at hu
    rcases hu with ⟨-, rfl⟩ | ⟨-, rfl⟩ | ⟨-, rfl⟩ | ⟨e, -⟩ | ⟨-, rfl⟩
    · right; norm_num
    · right; norm_num
    · right; norm_num
    · exact absurd e hm
    · left; norm_num
  have a := abs_le.1 hd.2.1
  rcases hs' with hs' | hs'
  · rw [le_abs]
    right
    nlinarith
  · rw [le_abs]
    left
    nlinarith

end series

/-- **C136** (cubes).  The same for cubes: the datetime is that of the time in minutes, whatever the units of the
file. -/
theorem C136_cubes_minutes {G : Type*} (f f' : Stack G) (t0 : DT) (h0 : Civil t0) (hs : f.start = text t0) (g : G)
    (t : ℚ) (h : addCube f g t none = (f', none)) : ∃ d, At t0 (t * 60) d ∧ f'.datetime f.index = some (text d) := by
  rcases current_spec t0 h0 t 60 "minutes" (by simp [unitTable]) with ⟨d, hd, e⟩ | ⟨-, e⟩
  · refine ⟨d, hd, ?_⟩
    simp only [addCube, addGrid, Option.getD_none, Option.getD_some, hs, e, Prod.mk.injEq, and_true,
      take_strDT d hd.1] at h
    rw [← h]
    simp [put]
  · simp [addCube, addGrid, hs, e] at h

example : At ⟨2015, 10, 1, 0⟩ (24 * 3600) ⟨2015, 10, 2, 0⟩ := by
  refine ⟨⟨⟨by decide, by decide, by decide, by decide, by decide, by decide⟩, by decide⟩, ?_⟩
  have : (⟨2015, 10, 2, 0⟩ : DT).abs - (⟨2015, 10, 1, 0⟩ : DT).abs = 86400000000 := by decide +kernel
  rw [this, Nearest]
  norm_num

/-! ## C137: profiles and cubes of the soil -/

/-- **C137** (profiles).  A run with the Richards method that asks for profiles of any variable fails when its output
files are opened; the first call already does. -/
theorem C137_profiles_violated (on : String → Bool) (s : String) (hs : s ∈ profileSwitches) (h : on s = true) :
    openRichards on = .error "TypeError: unexpected keyword argument" := by
  have h1 : profileSwitches.any on = true := List.any_eq_true.2 ⟨s, hs, h⟩
  have h2 : openPs = .error "TypeError: unexpected keyword argument" := by decide +kernel
  rw [openRichards, if_pos h1, h2]

/-- **C137** (cubes).  A run that asks for cubes, and not for profiles, starts without an error; but no cube file is
open, and whatever were open, no cube would be added at any of the times at which cubes are saved. -/
theorem C137_cubes_violated (on : String → Bool) (h : ∀ s ∈ profileSwitches, on s = false) :
    openRichards on = .ok [] ∧ ∀ isOpen, saveCubes on isOpen = [] := by
  have h1 : ¬ profileSwitches.any on = true := by
    rw [List.any_eq_true]
    rintro ⟨s, hs, e⟩
    rw [h s hs] at e
    cases e
  have h2 : openCs = false := by decide +kernel
  refine ⟨?_, fun isOpen => ?_⟩
  · rw [openRichards, if_neg h1, h2]
    simp
  · simp [saveCubes, addCubeCall]

/-- **C137** (reading).  From no profile file, whatever its variable and its cells, can a profile be read. -/
theorem C137_reading_violated (v name : Text) (ids : List (ℕ × ℕ)) :
    getProfile (profileVariables v ids) name = .error "KeyError" := by
  have hz : "z".toList ∉ profileVariables v ids := by
    simp only [profileVariables, List.mem_append, not_or]
    refine ⟨by decide, ?_⟩
    intro hm
    obtain ⟨p, -, e⟩ := List.mem_map.1 hm
    have : '_' ∈ vname v p.1 p.2 := by simp [vname]
    rw [e] at this
    revert this
    decide
  rw [getProfile]
  simp only [hz, not_false_eq_true, if_true, ite_self]

/-- The profile of a variable of the soil at a cell. -/
def SoilVar.at {V : Type*} : SoilVar V → ℕ × ℕ → ℕ → V
  | .profile x, _ => x
  | .cube _ _ x, p => fun z => x z p.1 p.2

/-- **C137** (values of profiles).  In a file that has the series, saving the profiles at a set of cells of a grid
stores the profile of each cell, from the first to the last level, and the time; but never a datetime. -/
theorem C137_profile_values_partial {V : Type*} (f : Series (ℕ → V)) (var : SoilVar V) (v : Text) (ids : List (ℕ × ℕ))
    (hids : ids.Nodup) (hnames : ∀ p ∈ ids, vname v p.1 p.2 ∈ f.names) (t : ℚ)
    (hc : ∀ rows cols x, var = .cube rows cols x → ∀ p ∈ ids, p.1 < rows ∧ p.2 < cols) :
    ∃ f', addProfiles f var v ids (some t) none = (f', none) ∧ f'.index = f.index + 1 ∧ f'.time f.index = some t ∧
      (∀ p ∈ ids, f'.data (vname v p.1 p.2) f.index = some (var.at p)) ∧
      (∀ m i, i ≠ f.index → f'.data m i = f.data m i) ∧ f'.datetime = f.datetime := by
  have hv : profilesAt var ids = .ok (ids.map var.at) := by
    cases var with
    | profile x => rfl
    | cube r c x =>
      rw [profilesAt, if_pos]
      · rfl
      · rw [List.all_eq_true]
        intro p hp
        simpa using hc r c x rfl p hp
  have hz : (ids.zip (ids.map var.at)) = ids.map fun p => (p, var.at p) := by
    have := List.zip_map' (f := id) (g := var.at) (l := ids)
    rwa [List.map_id] at this
  obtain ⟨f', p0, p1, p2, p3, p4, p5, p6, p7, p8, p9, p10⟩ := putAll_spec v f.index (ids.map fun p => (p, var.at p))
    { f with len := max f.len (f.index + 1), time := put f.time f.index t }
    (by
      intro q hq
      obtain ⟨p, hp, rfl⟩ := List.mem_map.1 hq
      exact hnames p hp)
    (by simpa [List.map_map, Function.comp_def] using hids)
  dsimp only at p1 p2 p3 p4 p5 p6 p7 p8 p9 p10
  refine ⟨{ f' with index := f.index + 1 }, ?_, rfl, ?_, ?_, p9, p6⟩
  · simp only [addProfiles, Option.getD_none, Option.getD_some, hv, hz, p0]
  · simp [p5, put]
  · intro p hp
    exact (p8 (p, var.at p) (List.mem_map.2 ⟨p, hp, rfl⟩)).1

/-! ## C138: a new file with the metadata of another -/

/-- **C138** (grid).  The grid information taken from a file is that with which the file was made. -/
theorem C138_grid {K : Type*} (g : Grid K) : getGridInfo (writeMeta g) = .ok g := rfl

/-- **C138** (period).  A file made for a period, in any of the six units, has a start and an end; a second file made in
the same units with the time information taken from the first has the same start, end, length and type. -/
theorem C138_period (a b : DT) (info : Info) (units : String) (c : Coverage)
    (h1 : info.text "start_date".toList = some (dateText a)) (h2 : info.text "start_time".toList = some (timeText a))
    (h3 : info.text "end_date".toList = some (dateText b)) (h4 : info.text "end_time".toList = some (timeText b))
    (h5 : info.text "start_datetime".toList = some (text a)) (h6 : info.text "end_datetime".toList = some (text b))
    (hc : openCoverage info units = .ok c) :
    ∃ info', getTimeInfo c units = .ok info' ∧ openCoverage info' units = .ok c ∧
      info'.duration = some c.duration ∧ info'.text "duration_units".toList = some units.toList := by
  rw [openCoverage, h1, h2, h3, h4, h5, h6] at hc
  simp only at hc
  split at hc
  · cases hc
  · next dur hdur =>
    split at hc
    · cases hc
    · next ty hty =>
      injection hc with hc
      subst hc
      have hsplit : ∀ t : DT, splitOn ' ' (text t) = [dateText t, timeText t] := by
        intro t
        have n1 : ' ' ∉ dateText t := by
          have q1 := notMem_of_digits (isDigit_pad t.year 4) ' ' (by decide)
          have q2 := notMem_of_digits (isDigit_pad t.month 2) ' ' (by decide)
          have q3 := notMem_of_digits (isDigit_pad t.day 2) ' ' (by decide)
          simp [dateText, q1, q2, q3]
        have n2 : ' ' ∉ timeText t := by
          have q1 := notMem_of_digits (isDigit_pad (t.us / 1000000 / 3600) 2) ' ' (by decide)
          have q2 := notMem_of_digits (isDigit_pad (t.us / 1000000 / 60 % 60) 2) ' ' (by decide)
          have q3 := notMem_of_digits (isDigit_pad (t.us / 1000000 % 60) 2) ' ' (by decide)
          simp [timeText, q1, q2, q3]
        rw [text, splitOn_cons ' ' _ _ n1, splitOn_end ' ' _ n2]
      refine ⟨_, by simp only [getTimeInfo, hsplit]; rfl, ?_, rfl, by dsimp only; rw [set_eq]⟩
      have ne : ∀ (a : Text → Option Text) (n k : String) (w : Text), k ≠ n → set a n w k.toList = a k.toList := set_ne
      rw [openCoverage]
      dsimp only
      rw [ne _ "duration_units" "start_date" _ (by decide), ne _ "duration_units" "start_time" _ (by decide),
        ne _ "duration_units" "end_date" _ (by decide), ne _ "duration_units" "end_time" _ (by decide),
        ne _ "duration_units" "start_datetime" _ (by decide), ne _ "duration_units" "end_datetime" _ (by decide),
        ne _ "end_datetime" "start_date" _ (by decide), ne _ "end_datetime" "start_time" _ (by decide),
        ne _ "end_datetime" "end_date" _ (by decide), ne _ "end_datetime" "end_time" _ (by decide),
        ne _ "end_datetime" "start_datetime" _ (by decide), set_eq,
        ne _ "start_datetime" "start_date" _ (by decide), ne _ "start_datetime" "start_time" _ (by decide),
        ne _ "start_datetime" "end_date" _ (by decide), ne _ "start_datetime" "end_time" _ (by decide), set_eq,
        ne _ "end_time" "start_date" _ (by decide), ne _ "end_time" "start_time" _ (by decide),
        ne _ "end_time" "end_date" _ (by decide), set_eq,
        ne _ "end_date" "start_date" _ (by decide), ne _ "end_date" "start_time" _ (by decide), set_eq,
        ne _ "start_time" "start_date" _ (by decide), set_eq, set_eq]
      simp only [hdur, hty]

end Nc
