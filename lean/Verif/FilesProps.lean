import Verif.FilesModel
import Mathlib.Tactic.Ring
import Mathlib.Data.Set.Finite.Lemmas

/-!
# C39: existing output files are not overwritten
-/

set_option autoImplicit false

namespace FilesSpec
open Files

/-- `v` is the `k`-th numbered variant of `base.ext`: `base_k.ext`. -/
def IsVariant (base ext : Name) (k : ℕ) (v : Name) : Prop :=
  v = base ++ ['_'] ++ Nat.toDigits 10 k ++ ['.'] ++ ext

/-- The name that must be used for output: the requested name `base.ext` if it
is free, otherwise the free numbered variant with the smallest number. -/
def Chosen (taken : Name → Prop) (base ext v : Name) : Prop :=
  (¬ taken (base ++ ['.'] ++ ext) ∧ v = base ++ ['.'] ++ ext) ∨
  (taken (base ++ ['.'] ++ ext) ∧
    ∃ k, 1 ≤ k ∧ IsVariant base ext k v ∧ ¬ taken v ∧
      ∀ j, 1 ≤ j → j < k → ∀ w, IsVariant base ext j w → taken w)

/-- `q` is what is left of `p` after cutting at one of its underscores. -/
def IsCut (p q : Name) : Prop := ∃ t, p = q ++ ['_'] ++ t

/-- The stems under which the info file of a grid `p.ext` is searched: `p`, or
`p` cut at an underscore. -/
def Stem (p q : Name) : Prop := q = p ∨ IsCut p q

/-- The info file of a grid with prefix `p`: the existing `q.rti` with the
longest stem `q`. -/
def InfoFile (ex : Name → Prop) (p f : Name) : Prop :=
  ∃ q, Stem p q ∧ f = q ++ ['.', 'r', 't', 'i'] ∧ ex f ∧
    ∀ q', Stem p q' → q.length < q'.length → ¬ ex (q' ++ ['.', 'r', 't', 'i'])

end FilesSpec

namespace Files
open FilesSpec

theorem rfind_none {c : Char} : ∀ {s : Name}, c ∉ s → rfind c s = none
  | [], _ => rfl
  | x :: xs, h => by
    have h1 : c ∉ xs := fun hh => h (List.mem_cons_of_mem _ hh)
    have h2 : x ≠ c := fun hh => h (by simp [hh])
    simp [rfind, rfind_none h1, h2]

theorem rfind_append {c : Char} (a : Name) {e : Name} (he : c ∉ e) :
    rfind c (a ++ c :: e) = some a.length := by
  induction a with
  | nil => simp [rfind, rfind_none he]
  | cons x xs ih => simp [rfind, ih]

theorem rfind_lt {c : Char} : ∀ {s : Name} {p : ℕ}, rfind c s = some p → p < s.length
  | [], _, h => by simp [rfind] at h
  | x :: xs, p, h => by
    unfold rfind at h
    cases hr : rfind c xs with
    | none =>
      rw [hr] at h
      simp only at h
      split at h
      · simp only [Option.some.injEq] at h; subst h; simp
      · simp at h
    | some q =>
      rw [hr] at h
      simp only [Option.some.injEq] at h
      have := rfind_lt hr
      simp only [List.length_cons]; omega

theorem rfind_mem {c : Char} : ∀ {s : Name}, c ∈ s → ∃ p, rfind c s = some p
  | [], h => by simp at h
  | x :: xs, h => by
    unfold rfind
    cases hr : rfind c xs with
    | some q => exact ⟨q + 1, rfl⟩
    | none =>
      have hx : x = c := by
        rcases List.mem_cons.1 h with h | h
        · exact h.symm
        · obtain ⟨p, hp⟩ := rfind_mem h
          rw [hr] at hp; cases hp
      exact ⟨0, by simp [hx]⟩

theorem prefixOf_dot (a : Name) {e : Name} (he : '.' ∉ e) :
    prefixOf (a ++ ['.'] ++ e) = a := by
  have : a ++ ['.'] ++ e = a ++ '.' :: e := by simp
  rw [this]
  simp [prefixOf, rfind_append a he]

theorem extensionOf_dot (a : Name) {e : Name} (he : '.' ∉ e) :
    extensionOf (a ++ ['.'] ++ e) = '.' :: e := by
  have : a ++ ['.'] ++ e = a ++ '.' :: e := by simp
  rw [this]
  simp [extensionOf, rfind_append a he]

/-- Nothing is lost when a name is taken apart. -/
theorem prefix_append_extension (s : Name) : prefixOf s ++ extensionOf s = s := by
  unfold prefixOf extensionOf
  cases rfind '.' s with
  | some p => exact List.take_append_drop p s
  | none => rw [List.dropLast_eq_take]; exact List.take_append_drop _ s

theorem toDigits_injective {a b : ℕ} (h : Nat.toDigits 10 a = Nat.toDigits 10 b) : a = b := by
  rw [← @Nat.ofDigitChars_ten_toDigits a, h, Nat.ofDigitChars_ten_toDigits]

theorem versioned_injective (s : Name) : Function.Injective (versioned s) := by
  intro a b h
  unfold versioned at h
  have h1 := List.append_cancel_right h
  have h2 := List.append_cancel_left h1
  exact toDigits_injective (List.cons.inj h2).2

theorem overwriteLoop_spec (ex : Name → Bool) (s : Name) :
    ∀ (fuel k : ℕ) (v : Name), overwriteLoop ex s fuel k = some v →
      ∃ m, k ≤ m ∧ v = versioned s m ∧ ex v = false ∧
        ∀ j, k ≤ j → j < m → ex (versioned s j) = true
  | 0, _, _, h => by simp [overwriteLoop] at h
  | fuel + 1, k, v, h => by
    unfold overwriteLoop at h
    by_cases hk : ex (versioned s k) = true
    · rw [if_pos hk] at h
      obtain ⟨m, hm, hv, hf, hj⟩ := overwriteLoop_spec ex s fuel (k + 1) v h
      refine ⟨m, by omega, hv, hf, fun j h1 h2 => ?_⟩
      rcases Nat.eq_or_lt_of_le h1 with h3 | h3
      · rw [← h3]; exact hk
      · exact hj j h3 h2
    · rw [if_neg hk] at h
      simp only [Option.some.injEq] at h
      refine ⟨k, le_refl _, h.symm, ?_, fun j h1 h2 => absurd h2 (by omega)⟩
      rw [← h]; simpa using hk

theorem overwriteLoop_stops (ex : Name → Bool) (s : Name) :
    ∀ (d k : ℕ), ex (versioned s (k + d)) = false →
      ∃ v, overwriteLoop ex s (d + 1) k = some v
  | 0, k, h => ⟨versioned s k, by simp [overwriteLoop, show ex (versioned s k) = false by simpa using h]⟩
  | d + 1, k, h => by
    unfold overwriteLoop
    by_cases hk : ex (versioned s k) = true
    · rw [if_pos hk]
      exact overwriteLoop_stops ex s d (k + 1) (by rw [← h]; congr 2; ring)
    · rw [if_neg hk]; exact ⟨_, rfl⟩

/-- A directory with finitely many files leaves some numbered variant free. -/
theorem exists_free (ex : Name → Bool) (hfin : {n | ex n = true}.Finite) (s : Name) :
    ∃ d, ex (versioned s (1 + d)) = false := by
  by_contra hcon
  push Not at hcon
  have hall : ∀ d, ex (versioned s (1 + d)) = true := fun d => by
    cases h : ex (versioned s (1 + d)) with
    | true => rfl
    | false => exact absurd h (hcon d)
  have hinj : Function.Injective (fun d : ℕ => versioned s (1 + d)) := fun a b h => by
    have := versioned_injective s h
    omega
  exact Set.infinite_of_injective_forall_mem hinj hall hfin

/-- **C39 (name chosen for output).**  For every directory with finitely many
files and every requested name `base.ext` (the extension being what follows the
last dot), `check_overwrite` terminates, and the name it returns is free; it is
the requested name when that is free and otherwise the free numbered variant
`base_k.ext` with the smallest `k ≥ 1`. -/
theorem C39_free_name (ex : Name → Bool) (hfin : {n | ex n = true}.Finite)
    (base ext : Name) (hext : '.' ∉ ext) :
    ∃ v, (∃ fuel₀, ∀ fuel, fuel₀ ≤ fuel →
            checkOverwrite ex fuel (base ++ ['.'] ++ ext) = some v) ∧
      ex v = false ∧ Chosen (fun n => ex n = true) base ext v := by
  have hvar : ∀ k, versioned (base ++ ['.'] ++ ext) k
      = base ++ ['_'] ++ Nat.toDigits 10 k ++ ['.'] ++ ext := by
    intro k
    unfold versioned
    rw [prefixOf_dot base hext, extensionOf_dot base hext]
    simp
  by_cases hs : ex (base ++ ['.'] ++ ext) = true
  · obtain ⟨d, hd⟩ := exists_free ex hfin (base ++ ['.'] ++ ext)
    obtain ⟨v, hv⟩ := overwriteLoop_stops ex _ d 1 hd
    have mono : ∀ fuel k v n, overwriteLoop ex (base ++ ['.'] ++ ext) fuel k = some v →
        fuel ≤ n → overwriteLoop ex (base ++ ['.'] ++ ext) n k = some v := by
      intro fuel
      induction fuel with
      | zero => intro k v n h; simp [overwriteLoop] at h
      | succ f ih =>
        intro k v n h hn
        obtain ⟨n', rfl⟩ : ∃ n', n = n' + 1 := ⟨n - 1, by omega⟩
        unfold overwriteLoop at h ⊢
        by_cases hk : ex (versioned (base ++ ['.'] ++ ext) k) = true
        · rw [if_pos hk] at h ⊢; exact ih _ _ _ h (by omega)
        · rw [if_neg hk] at h ⊢; exact h
    obtain ⟨m, hm, hvm, hfree, hmin⟩ := overwriteLoop_spec ex _ _ _ _ hv
    refine ⟨v, ⟨d + 1, fun fuel hf => ?_⟩, hfree, Or.inr ⟨hs, m, hm, ?_, by simp [hfree], ?_⟩⟩
    · unfold checkOverwrite
      rw [if_neg (by rw [hs]; decide)]
      exact mono _ _ _ _ hv hf
    · unfold IsVariant; rw [hvm, hvar]
    · intro j h1 h2 w hw
      unfold IsVariant at hw
      rw [hw, ← hvar]; exact hmin j h1 h2
  · refine ⟨_, ⟨0, fun fuel _ => ?_⟩, Bool.not_eq_true _ ▸ hs, Or.inl ⟨hs, rfl⟩⟩
    unfold checkOverwrite
    rw [Bool.not_eq_true] at hs
    rw [hs]; rfl

/-- **C39 (any name).**  Whatever the requested name looks like (with or without
an extension), `check_overwrite` terminates and returns a free name. -/
theorem C39_never_existing (ex : Name → Bool) (hfin : {n | ex n = true}.Finite)
    (s : Name) :
    ∃ fuel v, checkOverwrite ex fuel s = some v ∧ ex v = false ∧ (ex s = false → v = s) := by
  by_cases hs : ex s = true
  · obtain ⟨d, hd⟩ := exists_free ex hfin s
    obtain ⟨v, hv⟩ := overwriteLoop_stops ex s d 1 hd
    obtain ⟨m, -, -, hfree, -⟩ := overwriteLoop_spec ex _ _ _ _ hv
    exact ⟨d + 1, v, by unfold checkOverwrite; rw [if_neg (by simp [hs])]; exact hv, hfree,
      fun h => by rw [hs] at h; cases h⟩
  · exact ⟨0, s, by simp [checkOverwrite, hs], by simpa using hs, fun _ => rfl⟩

/-- **C39 (names without an extension, violated).**  When the requested name has
no dot, the version number is inserted before its last character instead of
being appended: for every taken name `stem ++ [c]` whose first variant is free
the output goes to `stem_1c`. -/
theorem C39_no_extension_violated (ex : Name → Bool) (stem : Name) (c : Char)
    (hdot : '.' ∉ stem ++ [c]) (htaken : ex (stem ++ [c]) = true)
    (hfree : ex (stem ++ "_1".toList ++ [c]) = false) (fuel : ℕ) :
    checkOverwrite ex (fuel + 1) (stem ++ [c]) = some (stem ++ "_1".toList ++ [c]) := by
  have hv : versioned (stem ++ [c]) 1 = stem ++ "_1".toList ++ [c] := by
    unfold versioned prefixOf extensionOf
    rw [rfind_none hdot]
    have : Nat.toDigits 10 1 = ['1'] := by decide
    simp [this]
  unfold checkOverwrite
  rw [if_neg (by rw [htaken]; decide)]
  unfold overwriteLoop
  rw [hv, if_neg (by rw [hfree]; decide)]

theorem rfind_split {c : Char} : ∀ {s : Name} {p : ℕ}, rfind c s = some p →
    ∃ t, s = s.take p ++ [c] ++ t ∧ c ∉ t
  | [], _, h => by simp [rfind] at h
  | x :: xs, p, h => by
    unfold rfind at h
    cases hr : rfind c xs with
    | some q =>
      rw [hr] at h
      simp only [Option.some.injEq] at h
      obtain ⟨t, ht, hn⟩ := rfind_split hr
      refine ⟨t, ?_, hn⟩
      subst h
      rw [List.take_succ_cons, List.cons_append, List.cons_append, ← ht]
    | none =>
      rw [hr] at h
      simp only at h
      split at h
      · next hx =>
        simp only [Option.some.injEq] at h
        subst h
        refine ⟨xs, by simp [hx], fun hm => ?_⟩
        obtain ⟨p, hp⟩ := rfind_mem hm
        rw [hr] at hp; cases hp
      · simp at h

/-- Cuts of `p`: the cut at the last underscore, and the cuts of that. -/
theorem isCut_iff {p : Name} {pos : ℕ} (h : rfind '_' p = some pos) (q : Name) :
    IsCut p q ↔ q = p.take pos ∨ IsCut (p.take pos) q := by
  obtain ⟨t, ht, hn⟩ := rfind_split h
  constructor
  · rintro ⟨u, hu⟩
    have hlast : '_' ∉ u → q = p.take pos := by
      intro hu'
      have h1 : rfind '_' p = some q.length := by
        rw [hu, List.append_assoc]; exact rfind_append q hu'
      rw [h] at h1
      simp only [Option.some.injEq] at h1
      rw [hu, h1]; simp
    by_cases hu' : '_' ∈ u
    · right
      obtain ⟨k, hk⟩ := rfind_mem hu'
      obtain ⟨v, hv, hvn⟩ := rfind_split hk
      have h1 : rfind '_' p = some (q ++ ['_'] ++ u.take k).length := by
        have : p = (q ++ ['_'] ++ u.take k) ++ '_' :: v := by
          rw [hu]; conv_lhs => rw [hv]
          simp
        conv_lhs => rw [this]
        exact rfind_append _ hvn
      rw [h] at h1
      simp only [Option.some.injEq] at h1
      refine ⟨u.take k, ?_⟩
      rw [h1]
      have : p = (q ++ ['_'] ++ u.take k) ++ '_' :: v := by
        rw [hu]; conv_lhs => rw [hv]
        simp
      conv_lhs => rw [this]
      exact List.take_left
    · exact Or.inl (hlast hu')
  · rintro (rfl | ⟨u, hu⟩)
    · exact ⟨t, ht⟩
    · exact ⟨u ++ ['_'] ++ t, by conv_lhs => rw [ht, hu]
                                 simp⟩

theorem not_isCut {p q : Name} (h : rfind '_' p = none) : ¬ IsCut p q := by
  rintro ⟨t, ht⟩
  have : '_' ∈ p := by rw [ht]; simp
  obtain ⟨k, hk⟩ := rfind_mem this
  rw [h] at hk; cases hk

theorem isCut_length_lt {p q : Name} (h : IsCut p q) : q.length < p.length := by
  obtain ⟨t, rfl⟩ := h
  simp

theorem stripLoop_spec (ex : Name → Bool) :
    ∀ (fuel : ℕ) (p : Name), p.length < fuel →
      match stripLoop ex fuel p with
      | some f => ∃ q, IsCut p q ∧ f = q ++ ['.', 'r', 't', 'i'] ∧ ex f = true ∧
          ∀ q', IsCut p q' → q.length < q'.length → ex (q' ++ ['.', 'r', 't', 'i']) = false
      | none => ∀ q, IsCut p q → ex (q ++ ['.', 'r', 't', 'i']) = false
  | 0, p, h => by omega
  | fuel + 1, p, h => by
    unfold stripLoop
    cases hr : rfind '_' p with
    | none => exact fun q hq => absurd hq (not_isCut hr)
    | some pos =>
      have hcut := isCut_iff hr
      have hlt : (p.take pos).length < fuel := by
        have h1 := rfind_lt hr
        simp only [List.length_take]; omega
      simp only
      have hrti : ".rti".toList = ['.', 'r', 't', 'i'] := by decide
      rw [hrti]
      by_cases hex : ex (p.take pos ++ ['.', 'r', 't', 'i']) = true
      · rw [if_pos hex]
        refine ⟨p.take pos, (hcut _).2 (Or.inl rfl), rfl, hex, fun q' hq' hl => ?_⟩
        rcases (hcut q').1 hq' with h1 | h1
        · rw [h1] at hl; omega
        · have := isCut_length_lt h1; omega
      · rw [if_neg hex]
        have ih := stripLoop_spec ex fuel (p.take pos) hlt
        rw [Bool.not_eq_true] at hex
        cases hs : stripLoop ex fuel (p.take pos) with
        | none =>
          rw [hs] at ih
          simp only at ih ⊢
          intro q hq
          rcases (hcut q).1 hq with h1 | h1
          · rw [h1]; exact hex
          · exact ih q h1
        | some f =>
          rw [hs] at ih
          simp only at ih ⊢
          obtain ⟨q, hq, hf, he, hm⟩ := ih
          refine ⟨q, (hcut q).2 (Or.inr hq), hf, he, fun q' hq' hl => ?_⟩
          rcases (hcut q').1 hq' with h1 | h1
          · rw [h1]; exact hex
          · exact hm q' h1 hl

/-- **C61.**  For every directory and every grid file `base.ext`, the search for
its info file returns the existing `.rti` file with the longest stem among
`base` and `base` cut at an underscore, and fails exactly when there is none. -/
theorem C61_info_file (ex : Name → Bool) (base ext : Name) (hext : '.' ∉ ext) :
    (∀ f, tryToFindRti ex (base ++ ['.'] ++ ext) = some f →
        InfoFile (fun n => ex n = true) base f) ∧
    (tryToFindRti ex (base ++ ['.'] ++ ext) = none ↔
        ∀ q, Stem base q → ¬ ex (q ++ ['.', 'r', 't', 'i']) = true) := by
  have hrti : ".rti".toList = ['.', 'r', 't', 'i'] := by decide
  have hp : prefixOf (base ++ ['.'] ++ ext) = base := prefixOf_dot base hext
  have ih := stripLoop_spec ex ((base ++ ['.'] ++ ext).length + 1) base
    (by simp only [List.length_append]; omega)
  unfold tryToFindRti rtiName
  rw [hp, hrti]
  by_cases hex : ex (base ++ ['.', 'r', 't', 'i']) = true
  · rw [if_pos hex]
    refine ⟨fun f hf => ?_, ?_⟩
    · simp only [Option.some.injEq] at hf
      refine ⟨base, Or.inl rfl, hf.symm, by rw [← hf]; exact hex, fun q' hq' hl => ?_⟩
      rcases hq' with h1 | h1
      · rw [h1] at hl; omega
      · have := isCut_length_lt h1; omega
    · constructor
      · intro h; cases h
      · intro h; exact absurd hex (h base (Or.inl rfl))
  · rw [if_neg hex]
    cases hs : stripLoop ex ((base ++ ['.'] ++ ext).length + 1) base with
    | none =>
      rw [hs] at ih
      refine ⟨fun f hf => (by cases hf), fun _ => ?_, fun _ => rfl⟩
      rintro q (rfl | hq)
      · exact hex
      · rw [ih q hq]; decide
    | some f =>
      rw [hs] at ih
      obtain ⟨q, hq, hf, he, hm⟩ := ih
      refine ⟨fun f' hf' => ?_, ?_⟩
      · simp only [Option.some.injEq] at hf'
        subst hf'
        refine ⟨q, Or.inr hq, hf, he, ?_⟩
        rintro q' (rfl | hq') hl
        · exact hex
        · simp [hm q' hq' hl]
      · constructor
        · intro h; cases h
        · intro h; exact absurd (hf ▸ he) (h q (Or.inr hq))

/-- A flow grid `Treynor_Iowa_flow.rtg` finds `Treynor.rti` when that is the
only info file. -/
example : tryToFindRti (fun n => n == "Treynor.rti".toList) "Treynor_Iowa_flow.rtg".toList
    = some "Treynor.rti".toList := by decide +kernel

/-- The file `out.nc` and its first two variants exist: the third is used. -/
example : checkOverwrite
    (fun n => n == "out.nc".toList || n == "out_1.nc".toList || n == "out_2.nc".toList) 10
      "out.nc".toList = some "out_3.nc".toList := by decide +kernel

/-- With a dotted directory and no extension the variant lands in another
directory. -/
example : checkOverwrite (fun n => n == "run.d/out".toList) 10 "run.d/out".toList
    = some "run_1.d/out".toList := by decide +kernel

end Files
