import Mathlib.Tactic.Linarith
import Mathlib.Tactic.Positivity
import Mathlib.Tactic.Push
import Mathlib.Tactic.NormNum
import Mathlib.Data.List.Nodup
import Verif.CatchModel

/-!
# Catchments of the NextGen hydrofabric (C285, C286, C287)
-/

set_option autoImplicit false

open Cfg (Str)

namespace CatchSpec

open Catch (Box Feature Files)

variable {K : Type} [Field K] [LinearOrder K]

/-- The point lies in the box. -/
def Inside (p : K × K) (b : Box K) : Prop := b.w ≤ p.1 ∧ p.1 ≤ b.e ∧ b.s ≤ p.2 ∧ p.2 ≤ b.n

/-- The smallest box with these points: all lie in it and each of its four sides has one. -/
def Smallest (pts : List (K × K)) (b : Box K) : Prop :=
  (∀ p ∈ pts, Inside p b) ∧ (∃ p ∈ pts, p.1 = b.w) ∧ (∃ p ∈ pts, p.1 = b.e) ∧ (∃ p ∈ pts, p.2 = b.s) ∧ ∃ p ∈ pts, p.2 = b.n

/-- The record is the only one of this catchment: in a file of the older kind by its key, in one of the newer kind, where
no record has that key, by the ID among its properties. -/
def Only (fs : Files K) (cat : Str) (f : Feature K) : Prop :=
  f ∈ fs.feats ∧
    (((∀ g ∈ fs.feats, g.id ≠ none) ∧ f.id = some cat ∧ ∀ g ∈ fs.feats, g.id = some cat → g = f) ∨
      ((∀ g ∈ fs.feats, g.id = none ∧ g.divide ≠ none) ∧ f.divide = some cat ∧
        ∀ g ∈ fs.feats, g.divide = some cat → g = f))

/-- The file has no such catchment. -/
def Missing (fs : Files K) (cat : Str) : Prop :=
  ((∀ g ∈ fs.feats, g.id ≠ none) ∧ ∀ g ∈ fs.feats, g.id ≠ some cat) ∨
    ((∀ g ∈ fs.feats, g.id = none ∧ g.divide ≠ none) ∧ ∀ g ∈ fs.feats, g.divide ≠ some cat)

/-- The name of the coordinate system ends with this text. -/
def Ends (name : Str) (t : String) : Prop := ∃ p, name = p ++ t.toList

/-- Monotone or antitone. -/
def Monotonic (f : K → K) : Prop := Monotone f ∨ Antitone f

/-- A catchment of the file with this ID, into which no catchment of the file drains. -/
def Head (fs : Files K) (c : Str) : Prop :=
  ∃ f ∈ fs.feats, ∃ n : Str, f.id = some c ∧ c = "cat-".toList ++ n ∧
    ∀ g ∈ fs.feats, g.toid ≠ some ("nex-".toList ++ n)

/-- Every record has an ID `cat-…`, an outlet `nex-…` and an area. -/
def Regular (fs : Files K) : Prop :=
  ∀ f ∈ fs.feats, (∃ n : Str, f.id = some ("cat-".toList ++ n)) ∧ (∃ n : Str, f.toid = some ("nex-".toList ++ n)) ∧
    f.area ≠ none

end CatchSpec

namespace Catch

open CatchSpec

theorem next_found {A : Type} (key : A → Option Str) (cat : Str) :
    ∀ l : List A, (∀ a ∈ l, key a ≠ none) → ∀ f ∈ l, key f = some cat → (∀ g ∈ l, key g = some cat → g = f) →
      next? key cat l = .ok (some f)
  | [], _, f, hf, _, _ => by simp at hf
  | a :: as, hk, f, hf, hc, hu => by
    rw [next?]
    cases ha : key a with
    | none => exact absurd ha (hk a (by simp))
    | some k =>
      dsimp only
      by_cases e : k = cat
      · rw [if_pos e, hu a (by simp) (by rw [ha, e])]
      · rw [if_neg e]
        have hfa : f ∈ as := by
          rcases List.mem_cons.1 hf with h | h
          · rw [h, ha] at hc; exact absurd (Option.some.inj hc) e
          · exact h
        exact next_found key cat as (fun b hb => hk b (by simp [hb])) f hfa hc (fun g hg => hu g (by simp [hg]))

theorem next_missing {A : Type} (key : A → Option Str) (cat : Str) :
    ∀ l : List A, (∀ a ∈ l, key a ≠ none) → (∀ a ∈ l, key a ≠ some cat) → next? key cat l = .ok none
  | [], _, _ => rfl
  | a :: as, hk, hc => by
    rw [next?]
    cases ha : key a with
    | none => exact absurd ha (hk a (by simp))
    | some k =>
      dsimp only
      rw [if_neg (fun e => hc a (by simp) (by rw [ha, e]))]
      exact next_missing key cat as (fun b hb => hk b (by simp [hb])) (fun b hb => hc b (by simp [hb]))

theorem next_error {A : Type} (key : A → Option Str) (cat : Str) (l : List A) (h : ∀ a ∈ l, key a = none)
    (h0 : l ≠ []) : next? key cat l = .error "KeyError" := by
  cases l with
  | nil => exact absurd rfl h0
  | cons a as => rw [next?, h a (by simp)]

variable {K : Type} [Field K] [LinearOrder K]

omit [Field K] in
theorem lo_spec (l : List K) (a : K) : lo a l ≤ a ∧ (∀ x ∈ l, lo a l ≤ x) ∧ (lo a l = a ∨ lo a l ∈ l) := by
  induction l generalizing a with
  | nil => simp [lo]
  | cons b l ih =>
    have e : lo a (b :: l) = lo (min a b) l := rfl
    rw [e]
    obtain ⟨h1, h2, h3⟩ := ih (min a b)
    refine ⟨h1.trans (min_le_left _ _), ?_, ?_⟩
    · intro x hx
      rcases List.mem_cons.1 hx with h | h
      · exact h ▸ h1.trans (min_le_right _ _)
      · exact h2 x h
    · rcases h3 with h | h
      · rcases min_choice a b with m | m
        · left; rw [h, m]
        · right; rw [h, m]; simp
      · right; simp [h]

omit [Field K] in
theorem hi_spec (l : List K) (a : K) : a ≤ hi a l ∧ (∀ x ∈ l, x ≤ hi a l) ∧ (hi a l = a ∨ hi a l ∈ l) := by
  induction l generalizing a with
  | nil => simp [hi]
  | cons b l ih =>
    have e : hi a (b :: l) = hi (max a b) l := rfl
    rw [e]
    obtain ⟨h1, h2, h3⟩ := ih (max a b)
    refine ⟨(le_max_left _ _).trans h1, ?_, ?_⟩
    · intro x hx
      rcases List.mem_cons.1 hx with h | h
      · rw [h]; exact (le_max_right _ _).trans h1
      · exact h2 x h
    · rcases h3 with h | h
      · rcases max_choice a b with m | m
        · left; rw [h, m]
        · right; rw [h, m]; simp
      · right; simp [h]

omit [Field K] in
theorem ring_smallest (pts : List (K × K)) (inner : List (List (K × K))) (h : pts ≠ []) :
    ∃ b, ringBox (pts :: inner) = .ok b ∧ Smallest pts b := by
  cases pts with
  | nil => exact absurd rfl h
  | cons p ps =>
    refine ⟨_, rfl, ?_⟩
    obtain ⟨w1, w2, w3⟩ := lo_spec (ps.map Prod.fst) p.1
    obtain ⟨s1, s2, s3⟩ := lo_spec (ps.map Prod.snd) p.2
    obtain ⟨e1, e2, e3⟩ := hi_spec (ps.map Prod.fst) p.1
    obtain ⟨n1, n2, n3⟩ := hi_spec (ps.map Prod.snd) p.2
    refine ⟨?_, ?_, ?_, ?_, ?_⟩
    · intro q hq
      rcases List.mem_cons.1 hq with hq | hq
      · subst hq; exact ⟨w1, e1, s1, n1⟩
      · have m1 := List.mem_map_of_mem (f := Prod.fst) hq
        have m2 := List.mem_map_of_mem (f := Prod.snd) hq
        exact ⟨w2 _ m1, e2 _ m1, s2 _ m2, n2 _ m2⟩
    · rcases w3 with h | h
      · exact ⟨p, by simp, h.symm⟩
      · obtain ⟨q, hq, e⟩ := List.mem_map.1 h; exact ⟨q, by simp [hq], e⟩
    · rcases e3 with h | h
      · exact ⟨p, by simp, h.symm⟩
      · obtain ⟨q, hq, e⟩ := List.mem_map.1 h; exact ⟨q, by simp [hq], e⟩
    · rcases s3 with h | h
      · exact ⟨p, by simp, h.symm⟩
      · obtain ⟨q, hq, e⟩ := List.mem_map.1 h; exact ⟨q, by simp [hq], e⟩
    · rcases n3 with h | h
      · exact ⟨p, by simp, h.symm⟩
      · obtain ⟨q, hq, e⟩ := List.mem_map.1 h; exact ⟨q, by simp [hq], e⟩

omit [Field K] [LinearOrder K] in
theorem lookup_only {fs : Files K} {cat : Str} {f : Feature K} (h : Only fs cat f) : lookup fs cat = .ok (some f) := by
  obtain ⟨hf, ⟨h1, h2, h3⟩ | ⟨h1, h2, h3⟩⟩ := h
  · rw [lookup, next_found _ _ _ h1 f hf h2 h3]
  · rw [lookup, next_error _ _ _ (fun a ha => (h1 a ha).1) (List.ne_nil_of_mem hf)]
    exact next_found _ _ _ (fun a ha => (h1 a ha).2) f hf h2 h3

omit [Field K] [LinearOrder K] in
theorem lookup_missing {fs : Files K} {cat : Str} (h : Missing fs cat) : lookup fs cat = .ok none := by
  rcases h with ⟨h1, h2⟩ | ⟨h1, h2⟩
  · rw [lookup, next_missing _ _ _ h1 h2]
  · by_cases h0 : fs.feats = []
    · rw [lookup, h0]; rfl
    · rw [lookup, next_error _ _ _ (fun a ha => (h1 a ha).1) h0]
      exact next_missing _ _ _ (fun a ha => (h1 a ha).2) h2

theorem crs_geo {name : Str} (h : Ends name "CRS84") : crsType name = .geographic := by
  obtain ⟨p, e⟩ := h
  rw [crsType, if_pos]
  rw [e, List.length_append]
  exact List.drop_left' (by simp)

theorem crs_albers {name : Str} (h : Ends name "5070") : crsType name = .albers := by
  obtain ⟨p, e⟩ := h
  rw [crsType, if_neg, if_pos]
  · rw [e, List.length_append]
    exact List.drop_left' (by simp)
  · intro h
    have e1 : name.getLast? = some '4' := by
      have := List.take_append_drop (name.length - 5) name
      rw [h] at this
      rw [← this]; simp
    rw [e] at e1
    simp at e1

theorem crs_unknown {name : Str} (h1 : ¬ Ends name "CRS84") (h2 : ¬ Ends name "5070") : crsType name = .unknown := by
  rw [crsType, if_neg, if_neg]
  · intro h; exact h2 ⟨_, by rw [← h, List.take_append_drop]⟩
  · intro h; exact h1 ⟨_, by rw [← h, List.take_append_drop]⟩

/-- C285 (geographic files, proved in full; missing: files in Albers coordinates).  After any calls, for a catchment of a
file in geographic coordinates the box is the smallest one with the points of its outer ring, widened by the buffer on
all four sides (seconds to degrees); if a point is out of range the answer is -1.  For a catchment that the file does not
have, or a coordinate system that is neither of the two, the answer is -1. -/
theorem C285_geographic_partial [IsStrictOrderedRing K] (fs : Files K) (cs : List (Call K)) (cat : Str) (sec : K)
    (hs : 0 ≤ sec) :
    (∀ f pts inner, Ends fs.crs "CRS84" → Only fs cat f → f.rings = pts :: inner → pts ≠ [] →
      ((∀ p ∈ pts, |p.1| < 180 ∧ |p.2| < 90) →
        ∃ b, Smallest pts b ∧ (boundingBox fs (calls fs cs) cat sec).1 =
          .ok (some ⟨b.w - sec / 3600, b.s - sec / 3600, b.e + sec / 3600, b.n + sec / 3600⟩)) ∧
      (¬ (∀ p ∈ pts, |p.1| < 180 ∧ |p.2| < 90) → (boundingBox fs (calls fs cs) cat sec).1 = .ok none)) ∧
    (Missing fs cat → (boundingBox fs (calls fs cs) cat sec).1 = .ok none) ∧
    (∀ f pts inner, ¬ Ends fs.crs "CRS84" → ¬ Ends fs.crs "5070" → Only fs cat f → f.rings = pts :: inner → pts ≠ [] →
      (boundingBox fs (calls fs cs) cat sec).1 = .ok none) := by
  generalize calls fs cs = st
  refine ⟨?_, ?_, ?_⟩
  · intro f pts inner hc ho hr hne
    obtain ⟨b, hb, hsm⟩ := ring_smallest pts inner hne
    have hcond : inRange b = true ↔ ∀ p ∈ pts, |p.1| < 180 ∧ |p.2| < 90 := by
      obtain ⟨hin, ⟨p1, m1, e1⟩, ⟨p2, m2, e2⟩, ⟨p3, m3, e3⟩, ⟨p4, m4, e4⟩⟩ := hsm
      simp only [inRange, Bool.and_eq_true, decide_eq_true_eq]
      constructor
      · rintro ⟨⟨⟨a1, a2⟩, a3⟩, a4⟩ p hp
        obtain ⟨i1, i2, i3, i4⟩ := hin p hp
        rw [abs_lt] at *
        rw [abs_lt]
        exact ⟨⟨lt_of_lt_of_le a1.1 i1, lt_of_le_of_lt i2 a2.2⟩, lt_of_lt_of_le a3.1 i3, lt_of_le_of_lt i4 a4.2⟩
      · intro h
        exact ⟨⟨⟨e1 ▸ (h p1 m1).1, e2 ▸ (h p2 m2).1⟩, e3 ▸ (h p3 m3).2⟩, e4 ▸ (h p4 m4).2⟩
    refine ⟨fun hg => ⟨b, hsm, ?_⟩, fun hg => ?_⟩
    · rw [boundingBox, lookup_only ho]
      dsimp only
      rw [boxOf, hr, hb, crs_geo hc]
      dsimp only
      rw [if_pos (hcond.2 hg), buffer]
      by_cases h0 : 0 < sec
      · rw [if_pos h0]; rfl
      · rw [if_neg h0]
        have : sec = 0 := le_antisymm (not_lt.1 h0) hs
        simp [this]
    · rw [boundingBox, lookup_only ho]
      dsimp only
      rw [boxOf, hr, hb, crs_geo hc]
      dsimp only
      rw [if_neg (fun h => hg (hcond.1 h))]
  · intro h
    rw [boundingBox, lookup_missing h]
  · intro f pts inner h1 h2 ho hr hne
    obtain ⟨b, hb, _⟩ := ring_smallest pts inner hne
    rw [boundingBox, lookup_only ho]
    dsimp only
    rw [boxOf, hr, hb, crs_unknown h1 h2]

omit [Field K] in
theorem between {f : K → K} (h : Monotonic f) {a b x m M : K} (ha : a ≤ x) (hb : x ≤ b) (l1 : m ≤ f a) (l2 : m ≤ f b)
    (u1 : f a ≤ M) (u2 : f b ≤ M) : m ≤ f x ∧ f x ≤ M := by
  rcases h with h | h
  · exact ⟨l1.trans (h ha), (h hb).trans u2⟩
  · exact ⟨l2.trans (h hb), (h ha).trans u1⟩

/-- C285 (Albers coordinates, without buffer; missing: transformations that are not monotonic in each coordinate, and the
buffer).  If latitude and longitude are monotonic in x and in y, the box holds the transformed points of the outer ring,
and it is a box that has a point of a corner on each side. -/
theorem C285_albers_partial (fs : Files K) (st : St K) (inv : K → K → K × K) (cat : Str) (f : Feature K)
    (pts : List (K × K)) (inner : List (List (K × K))) (hc : Ends fs.crs "5070") (ho : Only fs cat f)
    (hr : f.rings = pts :: inner) (hne : pts ≠ [])
    (hm : ∀ c, Monotonic (fun x => (inv x c).1) ∧ Monotonic (fun y => (inv c y).1) ∧
      Monotonic (fun x => (inv x c).2) ∧ Monotonic (fun y => (inv c y).2)) :
    ∃ g b, (boundingBox fs { st with inv := some inv } cat 0).1 = .ok (some g) ∧ Smallest pts b ∧
      (∀ p ∈ pts, Inside ((inv p.1 p.2).2, (inv p.1 p.2).1) g) ∧
      Smallest ([(b.w, b.n), (b.w, b.s), (b.e, b.n), (b.e, b.s)].map (fun p => ((inv p.1 p.2).2, (inv p.1 p.2).1))) g := by
  obtain ⟨b, hb, hsm⟩ := ring_smallest pts inner hne
  have hS : Smallest ([(b.w, b.n), (b.w, b.s), (b.e, b.n), (b.e, b.s)].map
      (fun p => ((inv p.1 p.2).2, (inv p.1 p.2).1))) (cornerBox inv b) := by
    obtain ⟨g, e, h⟩ := ring_smallest ([(b.w, b.n), (b.w, b.s), (b.e, b.n), (b.e, b.s)].map
      (fun p => ((inv p.1 p.2).2, (inv p.1 p.2).1))) [] (by simp)
    have : g = cornerBox inv b := (Except.ok.inj e).symm
    exact this ▸ h
  refine ⟨cornerBox inv b, b, ?_, hsm, ?_, hS⟩
  · rw [boundingBox, lookup_only ho]
    dsimp only
    rw [boxOf, hr, hb, crs_albers hc]
    dsimp only
    rw [buffer, if_neg (lt_irrefl _)]
  · intro p hp
    obtain ⟨i1, i2, i3, i4⟩ := hsm.1 p hp
    have hI := hS.1
    simp only [List.map_cons, List.map_nil, List.mem_cons, List.not_mem_nil, or_false, forall_eq_or_imp,
      forall_eq] at hI
    obtain ⟨⟨a1, a2, a3, a4⟩, ⟨b1, b2, b3, b4⟩, ⟨c1, c2, c3, c4⟩, ⟨d1, d2, d3, d4⟩⟩ := hI
    dsimp only at *
    have n1 := between (hm b.n).2.2.1 i1 i2 a1 c1 a2 c2
    have s1 := between (hm b.s).2.2.1 i1 i2 b1 d1 b2 d2
    have n2 := between (hm b.n).1 i1 i2 a3 c3 a4 c4
    have s2 := between (hm b.s).1 i1 i2 b3 d3 b4 d4
    have r1 := between (hm p.1).2.2.2 i3 i4 s1.1 n1.1 s1.2 n1.2
    have r2 := between (hm p.1).2.1 i3 i4 s2.1 n2.1 s2.2 n2.2
    exact ⟨r1.1, r1.2, r2.1, r2.2⟩

/-- In a file in Albers coordinates no call sets the attributes of the geographic box. -/
theorem albers_geo (fs : Files K) (hc : Ends fs.crs "5070") (cs : List (Call K)) : (calls fs cs).geo = none := by
  have hb : ∀ (st : St K) cat sec, st.geo = none → (boundingBox fs st cat sec).2.geo = none := by
    intro st cat sec h
    rw [boundingBox]
    split <;> try exact h
    rw [boxOf, crs_albers hc]
    split
    · exact h
    · dsimp only
      split
      · exact h
      · rw [buffer]
        split
        · rw [h]; exact h
        · exact h
  have : ∀ (cs : List (Call K)) (st : St K), st.geo = none → (cs.foldl (call fs) st).geo = none := by
    intro cs
    induction cs with
    | nil => exact fun _ h => h
    | cons c cs ih =>
      intro st h
      apply ih
      cases c with
      | box cat sec => exact hb _ _ _ h
      | ocean =>
        rw [call, oceanCount]
        split
        · exact h
        · split <;> exact h
      | dem inv cat => exact hb _ _ _ h
  exact this cs {} rfl

/-- C285 is false of the code: in a file in Albers coordinates a buffer always ends with an error, whatever was called
before. -/
theorem C285_buffer_violated (fs : Files K) (hc : Ends fs.crs "5070") (cs : List (Call K)) (cat : Str) (f : Feature K)
    (ho : Only fs cat f) (sec : K) (hs : 0 < sec) : ∃ e, (boundingBox fs (calls fs cs) cat sec).1 = .error e := by
  have hg := albers_geo fs hc cs
  rw [boundingBox, lookup_only ho]
  dsimp only
  rw [boxOf, crs_albers hc]
  split
  · exact ⟨_, rfl⟩
  · dsimp only
    split
    · exact ⟨_, rfl⟩
    · rw [buffer, if_pos hs, hg]; exact ⟨_, rfl⟩

/-- C285 is false of the code for every conic projection: if the latitude falls with the distance from the point `(0, r)`
in which the meridians meet, the box of a triangle over the central meridian does not hold its northern point. -/
theorem C285_conic_violated [IsStrictOrderedRing K] (fs : Files K) (st : St K) (inv : K → K → K × K) (lat : K → K)
    (r a y0 y1 : K) (hl : StrictAnti lat) (hi : ∀ x y, (inv x y).1 = lat (x ^ 2 + (r - y) ^ 2)) (ha : 0 < a)
    (h01 : y0 < y1) (h1r : y1 < r) (hc : Ends fs.crs "5070") (cat : Str) (f : Feature K) (ho : Only fs cat f)
    (hr : f.rings = [[(-a, y0), (a, y0), (0, y1)]]) :
    ∃ g, (boundingBox fs { st with inv := some inv } cat 0).1 = .ok (some g) ∧ g.n < (inv 0 y1).1 := by
  have haa : -a ≤ a := by linarith
  have hb : ringBox [[(-a, y0), (a, y0), ((0 : K), y1)]] = .ok ⟨-a, y0, a, y1⟩ := by
    have e1 : min (-a) (0 : K) = -a := min_eq_left (by linarith)
    have e2 : max a (0 : K) = a := max_eq_left ha.le
    simp only [ringBox, lo, Catch.hi, List.map_cons, List.map_nil, List.foldl_cons, List.foldl_nil, min_eq_left haa,
      max_eq_right haa, min_self, max_self, e1, e2, min_eq_left h01.le, max_eq_right h01.le]
  refine ⟨cornerBox inv ⟨-a, y0, a, y1⟩, ?_, ?_⟩
  · rw [boundingBox, lookup_only ho]
    dsimp only
    rw [boxOf, hr, hb, crs_albers hc]
    dsimp only
    rw [buffer, if_neg (lt_irrefl _)]
  · have key : ∀ x y, (x = -a ∨ x = a) → (y = y0 ∨ y = y1) → (inv x y).1 < (inv 0 y1).1 := by
      intro x y hx hy
      rw [hi, hi]
      apply hl
      have hx2 : x ^ 2 = a ^ 2 := by rcases hx with rfl | rfl <;> ring
      have ha2 : 0 < a ^ 2 := by positivity
      rw [hx2]
      rcases hy with rfl | rfl
      · have : (r - y1) ^ 2 < (r - y) ^ 2 := by nlinarith
        linarith
      · linarith
    rcases (hi_spec [(inv (-a) y0).1, (inv a y1).1, (inv a y0).1] (inv (-a) y1).1).2.2 with h | h
    · change Catch.hi _ _ < _
      dsimp only
      rw [h]; exact key _ _ (Or.inl rfl) (Or.inr rfl)
    · change Catch.hi _ _ < _
      dsimp only
      simp only [List.mem_cons, List.not_mem_nil, or_false] at h
      rcases h with h | h | h
      · rw [h]; exact key _ _ (Or.inl rfl) (Or.inl rfl)
      · rw [h]; exact key _ _ (Or.inr rfl) (Or.inr rfl)
      · rw [h]; exact key _ _ (Or.inr rfl) (Or.inl rfl)

/-! ### Lookups, headwater catchments, ocean outlets -/

omit [Field K] [LinearOrder K] in
theorem keys_ok {A B : Type} (key : A → Option B) :
    ∀ l : List A, (∀ a ∈ l, key a ≠ none) → ∃ ks, keys key l = .ok ks ∧ ks.map some = l.map key
  | [], _ => ⟨[], rfl, rfl⟩
  | a :: as, h => by
    obtain ⟨ks, e1, e2⟩ := keys_ok key as (fun b hb => h b (by simp [hb]))
    rw [keys]
    cases ha : key a with
    | none => exact absurd ha (h a (by simp))
    | some k => dsimp only; rw [e1]; exact ⟨_, rfl, by simp [e2, ha]⟩

omit [Field K] [LinearOrder K] in
theorem mem_keys {A B : Type} {key : A → Option B} {l : List A} {ks : List B} (h : ks.map some = l.map key) (b : B) :
    b ∈ ks ↔ ∃ a ∈ l, key a = some b := by
  have : some b ∈ ks.map some ↔ some b ∈ l.map key := by rw [h]
  simpa using this

theorem areas_ok (fs : Files K) :
    ∀ cs : List Str, (∀ c ∈ cs, ∃ a, area fs c = .ok a) →
      ∃ l, areas fs cs = .ok l ∧ l.map Prod.snd = cs ∧ ∀ p ∈ l, area fs p.2 = .ok p.1
  | [], _ => ⟨[], rfl, rfl, by simp⟩
  | c :: cs, h => by
    obtain ⟨l, e1, e2, e3⟩ := areas_ok fs cs (fun b hb => h b (by simp [hb]))
    obtain ⟨a, ha⟩ := h c (by simp)
    rw [areas, ha, e1]
    refine ⟨_, rfl, by simp [e2], ?_⟩
    intro p hp
    rcases List.mem_cons.1 hp with hp | hp
    · rw [hp]; exact ha
    · exact e3 p hp

/-- C286 (lookups, proved; missing: files of the newer kind).  In a file of the older kind with one record of the
catchment, the area is that of the record and the outlet is the place of the point the catchment drains to; for a
catchment that is not in the file both answers are -1. -/
theorem C286_lookup_partial (fs : Files K) (cat : Str) (hk : ∀ g ∈ fs.feats, g.id ≠ none) :
    (∀ f ∈ fs.feats, f.id = some cat → (∀ g ∈ fs.feats, g.id = some cat → g = f) →
      (∀ a, f.area = some a → area fs cat = .ok a) ∧
      (∀ t r, f.toid = some t → r ∈ fs.nexus → r.id = t → (∀ q ∈ fs.nexus, q.id = t → q = r) →
        outlet fs cat = .ok (some (r.x, r.y))) ∧
      (∀ t, f.toid = some t → (∀ q ∈ fs.nexus, q.id ≠ t) → outlet fs cat = .ok none)) ∧
    ((∀ g ∈ fs.feats, g.id ≠ some cat) → area fs cat = .ok (-1) ∧ outlet fs cat = .ok none) := by
  refine ⟨fun f hf hc hu => ⟨?_, ?_, ?_⟩, fun h => ?_⟩
  · intro a ha
    rw [area, next_found _ _ _ hk f hf hc hu]
    dsimp only
    rw [ha]
  · intro t r ht hr hrt hq
    rw [outlet, next_found _ _ _ hk f hf hc hu]
    dsimp only
    rw [ht]
    dsimp only
    rw [next_found (fun r => some r.id) t fs.nexus (by simp) r hr (by simp [hrt]) (by simpa using hq)]
  · intro t ht hq
    rw [outlet, next_found _ _ _ hk f hf hc hu]
    dsimp only
    rw [ht]
    dsimp only
    rw [next_missing (fun r => some r.id) t fs.nexus (by simp) (by simpa using hq)]
  · rw [area, outlet, next_missing _ _ _ hk h]
    exact ⟨rfl, rfl⟩

/-- C286 (headwater catchments; missing: IDs of other forms).  If every record has an ID `cat-…`, an outlet `nex-…` and an
area, and no ID occurs twice, the list has exactly the catchments into which no catchment of the file drains, each once,
and none stands before one with a larger area. -/
theorem C286_headwaters_partial (fs : Files K) (hr : Regular fs) (hn : (fs.feats.map Feature.id).Nodup) :
    ∃ l, headwaters fs = .ok l ∧ l.Nodup ∧ (∀ c, c ∈ l ↔ Head fs c) ∧
      l.Pairwise (fun c d => ∀ f ∈ fs.feats, ∀ g ∈ fs.feats, f.id = some c → g.id = some d →
        ∀ a b, f.area = some a → g.area = some b → b ≤ a) := by
  have hid : ∀ f ∈ fs.feats, f.id ≠ none := fun f hf => by obtain ⟨⟨n, e⟩, _, _⟩ := hr f hf; simp [e]
  have hto : ∀ f ∈ fs.feats, f.toid ≠ none := fun f hf => by obtain ⟨_, ⟨n, e⟩, _⟩ := hr f hf; simp [e]
  have huniq : ∀ f ∈ fs.feats, ∀ g ∈ fs.feats, f.id = g.id → f = g := fun f hf g hg e =>
    List.inj_on_of_nodup_map hn hf hg e
  obtain ⟨toids, t1, t2⟩ := keys_ok Feature.toid fs.feats hto
  obtain ⟨ids, i1, i2⟩ := keys_ok Feature.id fs.feats hid
  have harea : ∀ f ∈ fs.feats, ∀ c a, f.id = some c → f.area = some a → area fs c = .ok a := by
    intro f hf c a hc ha
    exact ((C286_lookup_partial fs c hid).1 f hf hc (fun g hg e => huniq g hg f hf (by rw [e, hc]))).1 a ha
  have hform : ∀ c ∈ ids, ∃ n : Str, c = "cat-".toList ++ n := by
    intro c hc
    obtain ⟨f, hf, e⟩ := (mem_keys i2 c).1 hc
    obtain ⟨⟨n, e'⟩, _⟩ := hr f hf
    exact ⟨n, Option.some.inj (e.symm.trans e')⟩
  have hcat : ∀ n : Str, ("cat-".toList ++ n).drop 4 = n := fun n => rfl
  have hmemHead : ∀ c, c ∈ heads ids toids ↔ Head fs c := by
    intro c
    simp only [heads, List.mem_map, List.mem_filter, decide_eq_true_eq]
    constructor
    · rintro ⟨n, ⟨⟨i, hi, e1⟩, hnot⟩, e2⟩
      obtain ⟨m, hm⟩ := hform i hi
      obtain ⟨f, hf, ef⟩ := (mem_keys i2 i).1 hi
      have hnm : m = n := by rw [hm, hcat] at e1; exact e1
      refine ⟨f, hf, n, by rw [ef, hm, hnm, e2], e2.symm, ?_⟩
      intro g hg e
      exact hnot ⟨_, (mem_keys t2 _).2 ⟨g, hg, e⟩, rfl⟩
    · rintro ⟨f, hf, n, e1, e2, h⟩
      refine ⟨n, ⟨⟨c, (mem_keys i2 c).2 ⟨f, hf, e1⟩, by rw [e2, hcat]⟩, ?_⟩, e2.symm⟩
      rintro ⟨t, ht, e⟩
      obtain ⟨g, hg, eg⟩ := (mem_keys t2 t).1 ht
      obtain ⟨_, ⟨m, em⟩, _⟩ := hr g hg
      have : t = "nex-".toList ++ m := Option.some.inj (eg.symm.trans em)
      have hmn : m = n := by rw [this] at e; exact e
      exact h g hg (by rw [eg, this, hmn])
  have hok : ∀ c ∈ heads ids toids, ∃ a, area fs c = .ok a := by
    intro c hc
    obtain ⟨f, hf, n, e1, _, _⟩ := (hmemHead c).1 hc
    cases ha : f.area with
    | none => exact absurd ha (hr f hf).2.2
    | some a => exact ⟨a, harea f hf c a e1 ha⟩
  obtain ⟨l, l1, l2, l3⟩ := areas_ok fs _ hok
  have hidn : ids.Nodup := by
    have : (ids.map some).Nodup := by rw [i2]; exact hn
    exact List.Nodup.of_map _ this
  have hheads : (heads ids toids).Nodup := by
    rw [heads]
    refine List.Nodup.map (fun a b h => List.append_cancel_left h) (List.Nodup.filter _ ?_)
    refine List.Nodup.map_on ?_ hidn
    intro a ha b hb e
    obtain ⟨m, hm⟩ := hform a ha
    obtain ⟨n, hn'⟩ := hform b hb
    rw [hm, hn', hcat, hcat] at e
    rw [hm, hn', e]
  let le : K × Str → K × Str → Prop := fun a b => b.1 ≤ a.1
  have hperm : (l.insertionSort (fun a b => b.1 ≤ a.1)).Perm l := List.perm_insertionSort _ l
  have hperm2 : ((l.insertionSort (fun a b => b.1 ≤ a.1)).map Prod.snd).Perm (heads ids toids) := by
    rw [← l2]; exact hperm.map _
  refine ⟨(l.insertionSort (fun a b => b.1 ≤ a.1)).map Prod.snd, ?_, ?_, ?_, ?_⟩
  · rw [headwaters, t1]
    dsimp only
    rw [i1]
    dsimp only
    rw [l1]
  · exact hperm2.nodup_iff.2 hheads
  · intro c; rw [hperm2.mem_iff]; exact hmemHead c
  · rw [List.pairwise_map]
    haveI : Std.Total le := ⟨fun a b => le_total b.1 a.1⟩
    haveI : IsTrans (K × Str) le := ⟨fun a b c h1 h2 => le_trans h2 h1⟩
    have hs := List.pairwise_insertionSort le l
    refine List.Pairwise.imp_of_mem ?_ hs
    intro p q hp hq hpq f hf g hg e1 e2 a b ha hb
    have ep := l3 p (hperm.mem_iff.1 hp)
    have eq := l3 q (hperm.mem_iff.1 hq)
    rw [harea f hf _ a e1 ha] at ep
    rw [harea g hg _ b e2 hb] at eq
    have h1 := Except.ok.inj ep
    have h2 := Except.ok.inj eq
    rw [h1, h2]; exact hpq

/-- C286 (ocean outlets; missing: a second call).  If all records have an outlet, and the count was not asked for before,
it is the number of the catchments that drain to the ocean. -/
theorem C286_ocean_partial (fs : Files K) (ht : ∀ f ∈ fs.feats, f.toid ≠ none) (cs : List (Call K))
    (hc : ∀ c ∈ cs, c ≠ .ocean) :
    (oceanCount fs (calls fs cs)).1 = .ok (fs.feats.countP (fun f => decide (f.toid = some "nex-0".toList))) := by
  have hbuf : ∀ (st : St K) sec b, (buffer st sec b).2.ocean = st.ocean := by
    intro st sec b
    rw [buffer]
    split
    · split <;> rfl
    · rfl
  have hb : ∀ (st : St K) cat sec, (boundingBox fs st cat sec).2.ocean = st.ocean := by
    intro st cat sec
    rw [boundingBox]
    split <;> try rfl
    rw [boxOf]
    split
    · rfl
    · split
      · split
        · rw [hbuf]
        · rfl
      · split
        · rfl
        · rw [hbuf]
      · rfl
  have h0 : ∀ (cs : List (Call K)), (∀ c ∈ cs, c ≠ .ocean) → ∀ st : St K, st.ocean = none →
      (cs.foldl (call fs) st).ocean = none := by
    intro cs
    induction cs with
    | nil => exact fun _ _ h => h
    | cons c cs ih =>
      intro hc st h
      apply ih (fun d hd => hc d (by simp [hd]))
      cases c with
      | box cat sec => rw [call, hb]; exact h
      | ocean => exact absurd rfl (hc .ocean (by simp))
      | dem inv cat => rw [call, hb]; exact h
  obtain ⟨toids, t1, t2⟩ := keys_ok Feature.toid fs.feats ht
  rw [oceanCount, calls, h0 cs hc {} rfl]
  dsimp only
  rw [t1]
  dsimp only
  congr 1
  rw [← List.countP_eq_length_filter]
  have e1 : toids.countP (fun t => decide (t = "nex-0".toList)) =
      (toids.map some).countP (fun o => decide (o = some "nex-0".toList)) := by
    rw [List.countP_map]; congr 1; funext t; simp
  rw [e1, t2, List.countP_map]
  rfl

/-- C286 is false of the code: the number of outlets to the ocean can be asked for only once. -/
theorem C286_ocean_violated (fs : Files K) (ht : ∀ f ∈ fs.feats, f.toid ≠ none) (cs : List (Call K)) :
    ∃ e, (oceanCount fs (call fs (calls fs cs) .ocean)).1 = .error e := by
  obtain ⟨toids, t1, _⟩ := keys_ok Feature.toid fs.feats ht
  have : ∃ n, (call fs (calls fs cs) .ocean).ocean = some n := by
    rw [call, oceanCount]
    cases h : (calls fs cs).ocean with
    | some n => exact ⟨n, h⟩
    | none => dsimp only; rw [t1]; exact ⟨_, rfl⟩
  obtain ⟨n, hn⟩ := this
  rw [oceanCount, hn]
  exact ⟨_, rfl⟩

/-- C286 is false of the code: in a file of the newer kind area, outlet and headwater catchments always end with an error,
although the bounding box is found. -/
theorem C286_newer_violated (fs : Files K) (cat : Str) (f : Feature K) (hf : f ∈ fs.feats)
    (hk : ∀ g ∈ fs.feats, g.id = none) :
    (∃ e, area fs cat = .error e) ∧ (∃ e, outlet fs cat = .error e) ∧ ∃ e, headwaters fs = .error e := by
  have h0 := List.ne_nil_of_mem hf
  refine ⟨⟨_, by rw [area, next_error _ _ _ hk h0]⟩, ⟨_, by rw [outlet, next_error _ _ _ hk h0]⟩, ?_⟩
  rw [headwaters]
  split
  · exact ⟨_, rfl⟩
  · have : keys Feature.id fs.feats = .error "KeyError" := by
      cases hl : fs.feats with
      | nil => exact absurd hl h0
      | cons a as => rw [keys, hk a (by simp [hl])]
    rw [this]; exact ⟨_, rfl⟩

/-- C286 is false of the code: an outlet whose ID has another prefix of four characters counts as the one of the catchment
with the same number, so that a catchment into which nothing drains is left out. -/
theorem C286_prefix_violated :
    headwaters (⟨[], [⟨some "cat-1".toList, none, some "nex-9".toList, some 4, []⟩,
      ⟨some "cat-2".toList, none, some "tnx-1".toList, some 5, []⟩], []⟩ : Files ℚ) = .ok ["cat-2".toList] ∧
    Head (⟨[], [⟨some "cat-1".toList, none, some "nex-9".toList, some 4, []⟩,
      ⟨some "cat-2".toList, none, some "tnx-1".toList, some 5, []⟩], []⟩ : Files ℚ) "cat-1".toList := by
  constructor
  · decide +kernel
  · exact ⟨_, List.mem_cons_self, ['1'], by decide +kernel, by decide +kernel, by decide +kernel⟩

/-! ### The DEM of a catchment -/

/-- C287 (clip options; missing: both options at once).  Without the option of Albers coordinates the DEM has the
geographic box as its bounds, cells in degrees and is written as geographic; with it alone the bounds are whole metres
which hold the four corners and lie less than a metre beyond them, cells are in metres and the file is written as
Albers. -/
theorem C287_clip_partial [IsStrictOrderedRing K] [FloorRing K] (fwd : K → K → K × K) (g : Box K) (geo : Bool)
    (rs rm : K × K) :
    (let p := demPlan fwd g false geo rs rm
     p.bounds = g ∧ p.boundsSys = .geographic ∧ p.written = .geographic ∧ p.res = (rs.1 / 3600, rs.2 / 3600)) ∧
    (let p := demPlan fwd g true false rs rm
     p.boundsSys = .albers ∧ p.written = .albers ∧ p.res = rm ∧
      ∃ b : Box K, Smallest [fwd g.n g.w, fwd g.s g.w, fwd g.n g.e, fwd g.s g.e] b ∧
        (∃ k : ℤ, p.bounds.w = k) ∧ (∃ k : ℤ, p.bounds.s = k) ∧ (∃ k : ℤ, p.bounds.e = k) ∧ (∃ k : ℤ, p.bounds.n = k) ∧
        p.bounds.w ≤ b.w ∧ b.w < p.bounds.w + 1 ∧ p.bounds.s ≤ b.s ∧ b.s < p.bounds.s + 1 ∧
        b.e ≤ p.bounds.e ∧ p.bounds.e < b.e + 1 ∧ b.n ≤ p.bounds.n ∧ p.bounds.n < b.n + 1) := by
  constructor
  · cases geo <;> exact ⟨rfl, rfl, rfl, rfl⟩
  · refine ⟨rfl, rfl, rfl, ?_⟩
    obtain ⟨b, e, hs⟩ := ring_smallest [fwd g.n g.w, fwd g.s g.w, fwd g.n g.e, fwd g.s g.e] [] (by simp)
    refine ⟨b, hs, ⟨_, rfl⟩, ⟨_, rfl⟩, ⟨_, rfl⟩, ⟨_, rfl⟩, ?_⟩
    have hb := (Except.ok.inj e).symm
    subst hb
    exact ⟨Int.floor_le _, Int.lt_floor_add_one _, Int.floor_le _, Int.lt_floor_add_one _, Int.le_ceil _,
      Int.ceil_lt_add_one _, Int.le_ceil _, Int.ceil_lt_add_one _⟩

/-- C287 is false of the code: with both options the grid is geographic and the file is written as Albers. -/
theorem C287_both_violated [IsStrictOrderedRing K] [FloorRing K] (fwd : K → K → K × K) (g : Box K) (rs rm : K × K) :
    (demPlan fwd g true true rs rm).boundsSys = .geographic ∧ (demPlan fwd g true true rs rm).written = .albers ∧
      (demPlan fwd g true true rs rm).bounds = g := ⟨rfl, rfl, rfl⟩

/-- C287 is false of the code for every conic projection: over the central meridian the southern edge of the catchment's
box is cut off if its parallel sags by a metre or more.  `rho` is the distance of a parallel from the point where the
meridians meet, `cs` the cosine of the angle of a meridian. -/
theorem C287_conic_violated [IsStrictOrderedRing K] [FloorRing K] (fwd : K → K → K × K) (rho cs : K → K) (r t s n : K)
    (rs rm : K × K) (hf : ∀ lat lon, (fwd lat lon).2 = r - rho lat * cs lon) (he : cs (-t) = cs t) (h0 : cs 0 = 1)
    (hp : 0 ≤ cs t) (hr : rho n ≤ rho s) (hsag : 1 ≤ rho s * (1 - cs t)) :
    (fwd s 0).2 < (demPlan fwd ⟨-t, s, t, n⟩ true false rs rm).bounds.s := by
  have hlow : ∀ y ∈ [(fwd n (-t)).2, (fwd s (-t)).2, (fwd n t).2, (fwd s t).2], r - rho s * cs t ≤ y := by
    have : rho n * cs t ≤ rho s * cs t := mul_le_mul_of_nonneg_right hr hp
    intro y hy
    simp only [List.mem_cons, List.not_mem_nil, or_false] at hy
    rcases hy with rfl | rfl | rfl | rfl <;> rw [hf] <;> (try rw [he]) <;> linarith
  change _ < ((⌊lo (fwd n (-t)).2 [(fwd s (-t)).2, (fwd n t).2, (fwd s t).2]⌋ : ℤ) : K)
  have h1 : r - rho s * cs t ≤ lo (fwd n (-t)).2 [(fwd s (-t)).2, (fwd n t).2, (fwd s t).2] := by
    rcases (lo_spec [(fwd s (-t)).2, (fwd n t).2, (fwd s t).2] (fwd n (-t)).2).2.2 with h | h
    · rw [h]; exact hlow _ (by simp)
    · exact hlow _ (List.mem_cons_of_mem _ h)
  have h2 := Int.lt_floor_add_one (lo (fwd n (-t)).2 [(fwd s (-t)).2, (fwd n t).2, (fwd s t).2])
  rw [hf, h0]
  linarith

/-- C287 (elevations).  A cell is -9999 if the source has no data there and otherwise the elevation of the source divided
by the factor; the least and the largest elevation are those of the cells with data.  If there is no such cell, the answer
is -1. -/
theorem C287_values (nodata : ℤ) (z : K) (raw : List ℤ) :
    ((∀ v ∈ raw, v = nodata) → demValues nodata z raw = none) ∧
    ((∃ v ∈ raw, v ≠ nodata) → ∃ dem mn mx, demValues nodata z raw = some (dem, mn, mx) ∧
      dem.length = raw.length ∧
      (∀ i (hi : i < raw.length) (hd : i < dem.length),
        (raw[i] = nodata → dem[i] = -9999) ∧ (raw[i] ≠ nodata → dem[i] = (raw[i] : K) / z)) ∧
      (∀ v ∈ raw, v ≠ nodata → mn ≤ (v : K) / z ∧ (v : K) / z ≤ mx) ∧
      (∃ v ∈ raw, v ≠ nodata ∧ (v : K) / z = mn) ∧ ∃ v ∈ raw, v ≠ nodata ∧ (v : K) / z = mx) := by
  have hmem : ∀ x, x ∈ (raw.filter (fun v => decide (v ≠ nodata))).map (fun v : ℤ => (v : K) / z) ↔
      ∃ v ∈ raw, v ≠ nodata ∧ (v : K) / z = x := by
    intro x
    simp only [List.mem_map, List.mem_filter, decide_eq_true_eq, and_assoc]
  constructor
  · intro h
    rw [demValues]
    split
    · rfl
    · next a l e =>
      obtain ⟨v, hv, hn, _⟩ := (hmem a).1 (by rw [e]; simp)
      exact absurd (h v hv) hn
  · rintro ⟨v, hv, hn⟩
    rw [demValues]
    split
    · next e =>
      have := (hmem ((v : K) / z)).2 ⟨v, hv, hn, rfl⟩
      rw [e] at this; simp at this
    · next a l e =>
      refine ⟨_, _, _, rfl, by simp, ?_, ?_, ?_, ?_⟩
      · intro i hi hd
        constructor
        · intro h; simp [h]
        · intro h; simp [h]
      · intro u hu hnu
        have hm := (hmem ((u : K) / z)).2 ⟨u, hu, hnu, rfl⟩
        rw [e] at hm
        obtain ⟨a1, a2, _⟩ := lo_spec l a
        obtain ⟨b1, b2, _⟩ := hi_spec l a
        rcases List.mem_cons.1 hm with h | h
        · rw [h]; exact ⟨a1, b1⟩
        · exact ⟨a2 _ h, b2 _ h⟩
      · apply (hmem _).1
        rw [e]
        rcases (lo_spec l a).2.2 with h | h
        · rw [h]; simp
        · simp [h]
      · apply (hmem _).1
        rw [e]
        rcases (hi_spec l a).2.2 with h | h
        · rw [h]; simp
        · simp [h]

/-! ### Cases -/

/-- A file of the older kind with two catchments. -/
def older : Files ℚ :=
  ⟨"urn:ogc:def:crs:OGC:1.3:CRS84".toList,
   [⟨some "cat-1".toList, none, some "nex-2".toList, some 7, [[(-70, 44), (-69, 45), (-69, 44)]]⟩,
    ⟨some "cat-2".toList, none, some "nex-0".toList, some 9, [[(-69, 44), (-68, 44), (-68, 46)]]⟩],
   [⟨"nex-2".toList, -69, 44⟩]⟩

/-- A file of the newer kind in Albers coordinates. -/
def newer : Files ℚ :=
  ⟨"urn:ogc:def:crs:EPSG::5070".toList,
   [⟨none, some "cat-1".toList, some "nex-2".toList, some 7, [[(-2, 4), (2, 4), (0, 5)]]⟩], []⟩

example : (boundingBox older {} "cat-2".toList 36).1 =
    .ok (some ⟨-69 - 1 / 100, 44 - 1 / 100, -68 + 1 / 100, 46 + 1 / 100⟩) := by
  decide +kernel

example : ∃ f, Only older "cat-2".toList f ∧ Ends older.crs "CRS84" ∧ ∃ pts, f.rings = [pts] ∧ pts ≠ [] ∧
    ∀ p ∈ pts, |p.1| < 180 ∧ |p.2| < 90 := by
  refine ⟨⟨some "cat-2".toList, none, some "nex-0".toList, some 9, [[(-69, 44), (-68, 44), (-68, 46)]]⟩,
    ⟨by decide +kernel, Or.inl ⟨by decide +kernel, by decide +kernel, by decide +kernel⟩⟩,
    ⟨"urn:ogc:def:crs:OGC:1.3:".toList, by decide +kernel⟩, _, rfl, by simp, ?_⟩
  intro p hp
  simp only [List.mem_cons, List.not_mem_nil, or_false] at hp
  rcases hp with rfl | rfl | rfl <;> constructor <;> simp only [abs_lt] <;> norm_num

example : ∃ f, Only newer "cat-1".toList f ∧ Ends newer.crs "5070" ∧ f.rings = [[(-2, 4), (2, 4), (0, 5)]] :=
  ⟨⟨none, some "cat-1".toList, some "nex-2".toList, some 7, [[(-2, 4), (2, 4), (0, 5)]]⟩,
    ⟨by decide +kernel, Or.inr ⟨by decide +kernel, by decide +kernel, by decide +kernel⟩⟩,
    ⟨"urn:ogc:def:crs:EPSG::".toList, by decide +kernel⟩, rfl⟩

example : headwaters older = .ok ["cat-1".toList] := by decide +kernel

example : outlet older "cat-1".toList = .ok (some (-69, 44)) := by decide +kernel

example : area older "cat-2".toList = .ok 9 := by decide +kernel

example : (oceanCount older {}).1 = .ok 1 := by decide +kernel

example : Regular older ∧ (older.feats.map Feature.id).Nodup := by
  constructor
  · intro f hf
    rcases List.mem_cons.1 hf with rfl | hf
    · exact ⟨⟨['1'], by decide +kernel⟩, ⟨['2'], by decide +kernel⟩, by decide +kernel⟩
    · rcases List.mem_cons.1 hf with rfl | hf
      · exact ⟨⟨['2'], by decide +kernel⟩, ⟨['0'], by decide +kernel⟩, by decide +kernel⟩
      · exact absurd hf List.not_mem_nil
  · decide +kernel

/-- The identity is a transformation that is monotonic in each coordinate. -/
example : ∀ c : ℚ, Monotonic (fun x : ℚ => ((c, x) : ℚ × ℚ).1) ∧ Monotonic (fun y : ℚ => ((y, c) : ℚ × ℚ).1) :=
  fun _ => ⟨Or.inl (fun _ _ _ => le_refl _), Or.inl (fun _ _ h => h)⟩

example : StrictAnti (fun q : ℚ => 90 - q) := fun _ _ h => sub_lt_sub_left h _

example : demValues (-32768) (100 : ℚ) [12345, -32768, 400] = some ([2469 / 20, -9999, 4], 4, 2469 / 20) := by
  decide +kernel

example : ∃ v ∈ [12345, -32768, (400 : ℤ)], v ≠ -32768 := ⟨400, by simp, by decide⟩

end Catch
