import Verif.CollateProps

/-!
# Theorems C264 to C266: which row of which file is used
-/

set_option autoImplicit false

open Cfg (Str split strip)
open Collate

namespace Collate

open CollateSpec

/-! ## Walking through one file -/

/-- The rows of the rest of a file, as the code reads them. -/
def rowsRaw (key : Key) (rest : List Str) : List (Str × Str) :=
  (rest.takeWhile (fun l => l.dropLast ≠ [])).map fun l => (idOf key l.dropLast, l.dropLast)

theorem rowsRaw_blank {key : Key} {l : Str} {rest : List Str} (h : l.dropLast = []) : rowsRaw key (l :: rest) = [] := by
  unfold rowsRaw
  rw [List.takeWhile_cons_of_neg (by simpa using h)]
  rfl

theorem rowsRaw_cons {key : Key} {l : Str} {rest : List Str} (h : l.dropLast ≠ []) :
    rowsRaw key (l :: rest) = (idOf key l.dropLast, l.dropLast) :: rowsRaw key rest := by
  unfold rowsRaw
  rw [List.takeWhile_cons_of_pos (by simpa using h)]
  rfl

theorem skip_spec {key : Key} {db cl : Str} (rest : List Str) {c' : Cursor}
    (h : skip key db db cl rest = some c') :
    (rowsRaw key rest).dropWhile (fun q => q.1 = db) = (c'.id, c'.line) :: rowsRaw key c'.rest ∨
    ((rowsRaw key rest).dropWhile (fun q => q.1 = db) = [] ∧ c'.id = db) := by
  induction rest with
  | nil =>
    simp only [skip, Option.some.injEq] at h
    subst h
    exact Or.inr ⟨rfl, rfl⟩
  | cons l rest ih =>
    simp only [skip] at h
    by_cases hl : l.dropLast = []
    · rw [if_pos hl] at h
      simp only [Option.some.injEq] at h
      subst h
      rw [rowsRaw_blank hl]
      exact Or.inr ⟨rfl, rfl⟩
    · rw [if_neg hl] at h
      rw [rowsRaw_cons hl]
      rcases hn : nextId key l.dropLast with _ | id
      · rw [hn] at h; cases h
      rw [hn] at h
      simp only at h
      have hid := nextId_eq hn
      by_cases he : id ≠ db
      · rw [if_pos he] at h
        simp only [Option.some.injEq] at h
        subst h
        rw [hid, List.dropWhile_cons_of_neg (by simpa using he)]
        exact Or.inl rfl
      · rw [if_neg he] at h
        rw [List.dropWhile_cons_of_pos (by simpa [hid] using not_not.mp he)]
        exact ih h

/-- What is known about the position in a file when the sites `ids` are still to come: `U t` is the row that
will be used for the site `t`. -/
def Inv (key : Key) (c : Cursor) (ids : List Str) (U : Str → Option Str) : Prop :=
  ∃ Q : List (Str × Str), Q.Pairwise (fun a b => a.1 ≤ b.1) ∧
    (Q = (c.id, c.line) :: rowsRaw key c.rest ∨ (Q = [] ∧ ∀ t ∈ ids, c.id < t)) ∧
    ∀ t ∈ ids, U t = usedRow Q ids t

theorem usedRow_nil (ids : List Str) (t : Str) : usedRow [] ids t = none := by
  unfold usedRow
  rw [if_neg (by simp)]
  rfl

theorem usedRow_congr {Q Q' : List (Str × Str)} {ids ids' : List Str} {t : Str}
    (h1 : (∃ q ∈ Q, q.1 < t ∧ q.1 ∉ ids) ↔ (∃ q ∈ Q', q.1 < t ∧ q.1 ∉ ids'))
    (h2 : (Q.find? fun q => q.1 = t) = Q'.find? fun q => q.1 = t) : usedRow Q ids t = usedRow Q' ids' t := by
  unfold usedRow
  rw [h2]
  by_cases h : ∃ q ∈ Q, q.1 < t ∧ q.1 ∉ ids
  · rw [if_pos h, if_pos (h1.mp h)]
  · rw [if_neg h, if_neg (fun h' => h (h1.mpr h'))]

theorem stepOne_inv {key : Key} {s : Str} {ids : List Str} {c c' : Cursor} {m : Option Str}
    {U : Str → Option Str} (hs : (s :: ids).Pairwise (· < ·)) (hI : Inv key c (s :: ids) U)
    (h : stepOne key s c = some (m, c')) : m = U s ∧ Inv key c' ids U := by
  obtain ⟨Q, hQ, hshape, hU⟩ := hI
  rw [List.pairwise_cons] at hs
  have hUs := hU s (List.mem_cons_self ..)
  have hids : s ∉ ids := fun hm => lt_irrefl _ (hs.1 s hm)
  unfold stepOne at h
  by_cases hc : c.id = s
  · -- the row matches
    rw [if_pos hc] at h
    rcases hk : skip key c.id c.id c.line c.rest with _ | c2
    · rw [hk] at h; cases h
    rw [hk] at h
    simp only [Option.some.injEq, Prod.mk.injEq] at h
    obtain ⟨rfl, rfl⟩ := h
    rcases hshape with hQe | ⟨_, hlt⟩
    swap
    · exact absurd hc (ne_of_lt (hlt s (List.mem_cons_self ..)))
    set P := rowsRaw key c.rest with hP
    have hge : ∀ q ∈ Q, s ≤ q.1 := by
      intro q hq
      rw [hQe] at hq hQ
      rcases List.mem_cons.mp hq with rfl | hq
      · exact le_of_eq hc.symm
      · have := (List.pairwise_cons.mp hQ).1 q hq
        rw [hc] at this
        exact this
    refine ⟨?_, ?_⟩
    · rw [hUs]
      unfold usedRow
      rw [if_neg (by rintro ⟨q, hq, h1, _⟩; exact absurd h1 (not_lt.mpr (hge q hq))), hQe,
        List.find?_cons_of_pos (by simpa using hc)]
      rfl
    · have hPs : P.Pairwise (fun a b => a.1 ≤ b.1) := by rw [hQe] at hQ; exact (List.pairwise_cons.mp hQ).2
      have hPge : ∀ q ∈ P, s ≤ q.1 := fun q hq => hge q (by rw [hQe]; exact List.mem_cons_of_mem _ hq)
      have hsub : (P.dropWhile (fun q => q.1 = s)).Sublist P := List.dropWhile_sublist _
      have hsplit := List.takeWhile_append_dropWhile (p := fun q : Str × Str => decide (q.1 = s)) (l := P)
      rw [hc] at hk
      have hsk := skip_spec c.rest hk
      rw [← hP] at hsk
      refine ⟨P.dropWhile (fun q => q.1 = s), hPs.sublist hsub, ?_, ?_⟩
      · rcases hsk with h1 | ⟨h1, h2⟩
        · exact Or.inl h1
        · exact Or.inr ⟨h1, fun t ht => by rw [h2]; exact hs.1 t ht⟩
      · intro t ht
        rw [hU t (List.mem_cons_of_mem _ ht)]
        have hst := hs.1 t ht
        have htw : ∀ q ∈ P.takeWhile (fun q => q.1 = s), q.1 = s := by
          intro q hq
          simpa using List.mem_takeWhile_imp hq
        apply usedRow_congr
        · constructor
          · rintro ⟨q, hq, h1, h2⟩
            rw [List.mem_cons, not_or] at h2
            rw [hQe] at hq
            rcases List.mem_cons.mp hq with rfl | hq
            · exact absurd hc h2.1
            · rw [← hsplit] at hq
              rcases List.mem_append.mp hq with hq | hq
              · exact absurd (htw q hq) h2.1
              · exact ⟨q, hq, h1, h2.2⟩
          · rintro ⟨q, hq, h1, h2⟩
            have hqP := hsub.subset hq
            refine ⟨q, by rw [hQe]; exact List.mem_cons_of_mem _ hqP, h1, ?_⟩
            rw [List.mem_cons, not_or]
            refine ⟨?_, h2⟩
            -- rows after the ones with id `s` have larger ids
            rcases hd : P.dropWhile (fun q => q.1 = s) with _ | ⟨q0, D⟩
            · rw [hd] at hq; cases hq
            · have h0 : q0.1 ≠ s := by
                have := List.head?_dropWhile_not (p := fun q : Str × Str => decide (q.1 = s)) P
                rw [hd] at this
                simpa using this
              have h0' : s < q0.1 := lt_of_le_of_ne (hPge q0 (hsub.subset (by rw [hd]; simp))) (Ne.symm h0)
              have hDs := hPs.sublist hsub
              rw [hd] at hDs hq
              rcases List.mem_cons.mp hq with rfl | hq
              · exact h0
              · exact ne_of_gt (lt_of_lt_of_le h0' ((List.pairwise_cons.mp hDs).1 q hq))
        · rw [hQe, List.find?_cons_of_neg (by simpa [hc] using ne_of_lt hst)]
          conv_lhs => rw [← hsplit]
          rw [List.find?_append]
          have : (P.takeWhile (fun q => q.1 = s)).find? (fun q => q.1 = t) = none := by
            rw [List.find?_eq_none]
            intro q hq
            rw [htw q hq]
            simpa using ne_of_lt hst
          rw [this]
          rfl
  · rw [if_neg hc] at h
    simp only [Option.some.injEq, Prod.mk.injEq] at h
    obtain ⟨rfl, rfl⟩ := h
    rcases hshape with hQe | ⟨hQe, hlt⟩
    · have hhead : ∀ q ∈ Q, c.id ≤ q.1 := by
        intro q hq
        rw [hQe] at hq hQ
        rcases List.mem_cons.mp hq with rfl | hq
        · exact le_refl _
        · exact (List.pairwise_cons.mp hQ).1 q hq
      have hmem : (c.id, c.line) ∈ Q := by rw [hQe]; exact List.mem_cons_self ..
      rcases lt_or_gt_of_ne hc with hlt | hgt
      · -- the row is before the site: nothing is ever read from this file again
        have hnot : c.id ∉ s :: ids := by
          rw [List.mem_cons, not_or]
          exact ⟨hc, fun hm => lt_asymm hlt (hs.1 _ hm)⟩
        have hnone : ∀ t ∈ s :: ids, ∀ ids', (c.id ∉ ids') → usedRow Q ids' t = none := by
          intro t ht ids' hn
          unfold usedRow
          have : c.id < t := by
            rcases List.mem_cons.mp ht with rfl | ht
            · exact hlt
            · exact hlt.trans (hs.1 t ht)
          rw [if_pos ⟨_, hmem, this, hn⟩]
        refine ⟨by rw [hUs, hnone s (List.mem_cons_self ..) _ hnot], Q, hQ, Or.inl hQe, ?_⟩
        intro t ht
        have ht' := List.mem_cons_of_mem s ht
        rw [hU t ht', hnone t ht' _ hnot, hnone t ht' _ (fun hm => hnot (List.mem_cons_of_mem _ hm))]
      · have hne : ∀ q ∈ Q, s < q.1 := fun q hq => lt_of_lt_of_le hgt (hhead q hq)
        refine ⟨?_, Q, hQ, Or.inl hQe, ?_⟩
        · rw [hUs]
          unfold usedRow
          rw [if_neg (by rintro ⟨q, hq, h1, _⟩; exact lt_asymm h1 (hne q hq))]
          have : (Q.find? fun q => q.1 = s) = none := by
            rw [List.find?_eq_none]
            intro q hq
            simpa using ne_of_gt (hne q hq)
          rw [this]
          rfl
        · intro t ht
          rw [hU t (List.mem_cons_of_mem _ ht)]
          apply usedRow_congr _ rfl
          constructor
          · rintro ⟨q, hq, h1, h2⟩
            exact ⟨q, hq, h1, fun hm => h2 (List.mem_cons_of_mem _ hm)⟩
          · rintro ⟨q, hq, h1, h2⟩
            refine ⟨q, hq, h1, ?_⟩
            rw [List.mem_cons, not_or]
            exact ⟨ne_of_gt (hne q hq), h2⟩
    · refine ⟨by rw [hUs, hQe, usedRow_nil], [], List.Pairwise.nil,
        Or.inr ⟨rfl, fun t ht => hlt t (List.mem_cons_of_mem _ ht)⟩, ?_⟩
      intro t ht
      rw [hU t (List.mem_cons_of_mem _ ht), hQe, usedRow_nil, usedRow_nil]

/-! ## All files together -/

/-- The attributes after the rows `U k s` of the datasets have been read in turn. -/
def applyRows (ds : Key → Dataset) (U : Key → Str → Option Str) (s : Str) : List Key → Atts → Option Atts
  | [], a => some a
  | key :: rest, a =>
    match U key s with
    | none => applyRows ds U s rest a
    | some line =>
      match updateAttributes key (ds key).headings (split '\t' line) a with
      | none => none
      | some a => applyRows ds U s rest a

theorem stepKeys_inv (ds : Key → Dataset) {s : Str} {ids : List Str} (hs : (s :: ids).Pairwise (· < ·))
    (U : Key → Str → Option Str) (keys : List Key) (hn : keys.Nodup) :
    ∀ (cs cs' : Key → Cursor) (a b : Atts), (∀ k ∈ keys, Inv k (cs k) (s :: ids) (U k)) →
    stepKeys ds s keys cs a = some (b, cs') →
    (∀ k ∈ keys, Inv k (cs' k) ids (U k)) ∧ (∀ k, k ∉ keys → cs' k = cs k) ∧
    applyRows ds U s keys a = some b := by
  induction keys with
  | nil =>
    intro cs cs' a b _ h
    simp only [stepKeys, Option.some.injEq, Prod.mk.injEq] at h
    obtain ⟨rfl, rfl⟩ := h
    exact ⟨by simp, fun _ _ => rfl, rfl⟩
  | cons key rest ih =>
    rw [List.nodup_cons] at hn
    intro cs cs' a b hI h
    simp only [stepKeys] at h
    rcases h1 : stepOne key s (cs key) with _ | ⟨m, c'⟩
    · rw [h1] at h; cases h
    rw [h1] at h
    obtain ⟨hm, hI'⟩ := stepOne_inv hs (hI key (List.mem_cons_self ..)) h1
    have hrest : ∀ k ∈ rest, Inv k ((fun k => if k = key then c' else cs k) k) (s :: ids) (U k) := by
      intro k hk
      have : k ≠ key := fun e => hn.1 (e ▸ hk)
      simp only [if_neg this]
      exact hI k (List.mem_cons_of_mem _ hk)
    have fin : ∀ a', stepKeys ds s rest (fun k => if k = key then c' else cs k) a' = some (b, cs') →
        (∀ k ∈ key :: rest, Inv k (cs' k) ids (U k)) ∧ (∀ k, k ∉ key :: rest → cs' k = cs k) ∧
        applyRows ds U s rest a' = some b := by
      intro a' h'
      obtain ⟨i1, i2, i3⟩ := ih hn.2 _ _ _ _ hrest h'
      refine ⟨fun k hk => ?_, fun k hk => ?_, i3⟩
      · rcases List.mem_cons.mp hk with rfl | hk
        · rw [i2 k hn.1]; simp only [if_true]; exact hI'
        · exact i1 k hk
      · rw [List.mem_cons, not_or] at hk
        rw [i2 k hk.2]; simp only [if_neg hk.1]
    rcases m with _ | line
    · obtain ⟨f1, f2, f3⟩ := fin a h
      refine ⟨f1, f2, ?_⟩
      simp only [applyRows]
      rw [← hm]
      exact f3
    · simp only at h
      rcases h2 : updateAttributes key (ds key).headings (split '\t' line) a with _ | a1
      · rw [h2] at h; cases h
      rw [h2] at h
      obtain ⟨f1, f2, f3⟩ := fin a1 h
      refine ⟨f1, f2, ?_⟩
      simp only [applyRows]
      rw [← hm]
      simp only
      rw [h2]
      exact f3

theorem siteLoop_inv (env : Env) (ds : Key → Dataset) (d : Dict) (n : ℕ) (U : Key → Str → Option Str)
    (ids : List Str) : ∀ (counter : ℕ) (cs : Key → Cursor) (out : List (List Str)), ids.Pairwise (· < ·) →
    (∀ k ∈ primaryKeys, Inv k (cs k) ids (U k)) → siteLoop env ds d n counter ids cs = some out →
    List.Forall₂ (fun s row => ∃ a b incl, applyRows ds U s primaryKeys (defaultAtts env s) = some a ∧
      lookups env s a = some b ∧ row = attKeys.map b ++ incl) (taken counter n ids) out := by
  induction ids with
  | nil =>
    intro counter cs out _ _ h
    simp only [siteLoop, Option.some.injEq] at h
    subst h
    unfold taken
    simp
  | cons s rest ih =>
    intro counter cs out hs hI h
    simp only [siteLoop] at h
    rcases h1 : siteRow env ds d s cs with _ | ⟨row, cs'⟩
    · rw [h1] at h; cases h
    rw [h1] at h
    simp only at h
    have hr : (∃ a b incl, applyRows ds U s primaryKeys (defaultAtts env s) = some a ∧
        lookups env s a = some b ∧ row = attKeys.map b ++ incl) ∧ ∀ k ∈ primaryKeys, Inv k (cs' k) rest (U k) := by
      unfold siteRow at h1
      rcases r1 : inclusionList d s with _ | incl
      · rw [r1] at h1; cases h1
      rw [r1] at h1
      simp only at h1
      rcases r2 : stepKeys ds s primaryKeys cs (defaultAtts env s) with _ | ⟨a, cs2⟩
      · rw [r2] at h1; cases h1
      rw [r2] at h1
      simp only at h1
      rcases r3 : lookups env s a with _ | b
      · rw [r3] at h1; cases h1
      rw [r3] at h1
      simp only [Option.some.injEq, Prod.mk.injEq] at h1
      obtain ⟨hrow, rfl⟩ := h1
      obtain ⟨i1, _, i3⟩ := stepKeys_inv ds hs U primaryKeys (by decide) _ _ _ _ hI r2
      exact ⟨⟨a, b, _, i3, r3, hrow.symm⟩, i1⟩
    by_cases hc : counter + 1 = n
    · rw [if_pos hc] at h
      simp only [Option.some.injEq] at h
      subst h
      have : taken counter n (s :: rest) = [s] := by
        unfold taken
        rw [if_pos (by omega), show n - counter = 1 by omega]
        simp
      rw [this]
      exact .cons hr.1 .nil
    · rw [if_neg hc] at h
      rcases h2 : siteLoop env ds d n (counter + 1) rest cs' with _ | rs
      · rw [h2] at h; cases h
      rw [h2] at h
      simp only [Option.some.injEq] at h
      subst h
      have : taken counter n (s :: rest) = s :: taken (counter + 1) n rest := by
        unfold taken
        by_cases hl : counter < n
        · rw [if_pos hl, if_pos (by omega), show n - counter = (n - (counter + 1)) + 1 by omega]
          rfl
        · rw [if_neg hl, if_neg (by omega)]
      rw [this]
      exact .cons hr.1 (ih _ _ _ (List.pairwise_cons.mp hs).2 hr.2 h2)

/-- All lines of the file end with a newline. -/
def Terminated (d : Dataset) : Prop := ∀ l ∈ d.lines, l.getLast? = some '\n'

theorem rows_eq {key : Key} {d : Dataset} (h : Terminated d) : rows key d = rowsRaw key d.lines := by
  unfold rows rowsRaw
  have : ∀ L : List Str, (∀ l ∈ L, l.getLast? = some '\n') →
      (L.map content).takeWhile (fun l => l ≠ []) = (L.takeWhile (fun l => l.dropLast ≠ [])).map List.dropLast := by
    intro L hL
    induction L with
    | nil => rfl
    | cons l L ih =>
      have hl : content l = l.dropLast := by
        unfold content; rw [if_pos (hL l (List.mem_cons_self ..))]
      rw [List.map_cons, hl]
      by_cases hb : l.dropLast = []
      · rw [List.takeWhile_cons_of_neg (by simpa using hb), List.takeWhile_cons_of_neg (by simpa using hb)]
        rfl
      · rw [List.takeWhile_cons_of_pos (by simpa using hb), List.takeWhile_cons_of_pos (by simpa using hb),
          List.map_cons, ih (fun l hl => hL l (List.mem_cons_of_mem _ hl))]
  rw [this _ h, List.map_map]
  rfl

/-- The position after opening a file. -/
theorem openFile_inv {key : Key} {d : Dataset} {c : Cursor} (ht : Terminated d)
    (hs : (rows key d).Pairwise (fun a b => a.1 ≤ b.1)) (h : openFile key d = some c) (ids : List Str)
    (hids : ∀ t ∈ ids, t ≠ []) : Inv key c ids (fun t => usedRow (rows key d) ids t) := by
  refine ⟨rows key d, hs, ?_, fun _ _ => rfl⟩
  rw [rows_eq ht]
  unfold openFile at h
  rcases hd : d.lines with _ | ⟨l, rest⟩
  · rw [hd] at h
    simp only [nextLine] at h
    rcases hn : nextId key [] with _ | id
    · rw [hn] at h; cases h
    rw [hn] at h
    simp only [Option.some.injEq] at h
    subst h
    refine Or.inr ⟨rfl, fun t ht => ?_⟩
    have : id = [] := by
      have := nextId_eq hn
      rw [← this]
      cases key <;> rfl
    rw [this]
    rcases t with _ | ⟨x, t⟩
    · exact absurd rfl (hids _ ht)
    · exact List.Lex.nil
  · rw [hd] at h
    simp only [nextLine] at h
    rcases hn : nextId key l.dropLast with _ | id
    · rw [hn] at h; cases h
    rw [hn] at h
    simp only [Option.some.injEq] at h
    subst h
    have hid := nextId_eq hn
    by_cases hb : l.dropLast = []
    · rw [rowsRaw_blank hb]
      refine Or.inr ⟨rfl, fun t ht => ?_⟩
      have : id = [] := by
        rw [← hid, hb]
        cases key <;> rfl
      simp only
      rw [this]
      rcases t with _ | ⟨x, t⟩
      · exact absurd rfl (hids _ ht)
      · exact List.Lex.nil
    · rw [rowsRaw_cons hb, hid]
      exact Or.inl rfl

theorem openAll_spec (ds : Key → Dataset) (keys : List Key) : ∀ (cs : Key → Cursor), openAll ds keys = some cs →
    ∀ k ∈ keys, openFile k (ds k) = some (cs k) := by
  induction keys with
  | nil => intro cs _ k hk; cases hk
  | cons key rest ih =>
    intro cs h k hk
    simp only [openAll] at h
    rcases h1 : openFile key (ds key) with _ | c
    · rw [h1] at h; cases h
    rcases h2 : openAll ds rest with _ | cs1
    · rw [h1, h2] at h; cases h
    rw [h1, h2] at h
    simp only [Option.some.injEq] at h
    subst h
    by_cases he : k = key
    · subst he; simp only [if_true]; exact h1
    · simp only [if_neg he]
      exact ih cs1 h2 k ((List.mem_cons.mp hk).resolve_left he)

/-! ## C264: where the values come from -/

theorem firstSet_step (v o : Str) (os : List Str) :
    firstSet v (o :: os) = if Unset v then firstSet o os else v := by
  unfold firstSet
  by_cases h : Unset v
  · rw [if_pos h, List.find?_cons_of_neg (by simpa using h)]
    generalize hf : (o :: os).find? (fun x => decide ¬ Unset x) = r
    rcases r with _ | x
    · simp only
      rw [List.getLast_cons (by simp)]
    · rfl
  · rw [if_neg h, List.find?_cons_of_pos (by simpa using h)]

theorem firstSet_nil (v : Str) : firstSet v [] = v := by
  unfold firstSet
  by_cases h : Unset v
  · rw [List.find?_cons_of_neg (by simpa using h)]; rfl
  · rw [List.find?_cons_of_pos (by simpa using h)]

/-- The values that the datasets offer for an attribute of the site, in the order of preference. -/
def offers (ds : Key → Dataset) (U : Key → Str → Option Str) (s : Str) (att : String) (keys : List Key) : List Str :=
  keys.filterMap fun k => (U k s).bind fun line => offer k (ds k) att line

theorem applyRows_spec (ds : Key → Dataset) (U : Key → Str → Option Str) (s : Str) {x : String} (hx : x ∉ unitAtts)
    (keys : List Key) : ∀ (a b : Atts), applyRows ds U s keys a = some b →
    b x = firstSet (a x) (offers ds U s x keys) := by
  induction keys with
  | nil =>
    intro a b h
    simp only [applyRows, Option.some.injEq] at h
    subst h
    exact (firstSet_nil _).symm
  | cons key rest ih =>
    intro a b h
    simp only [applyRows] at h
    unfold offers
    rcases hu : U key s with _ | line
    · rw [hu] at h
      rw [List.filterMap_cons_none (by rw [hu]; rfl)]
      exact ih a b h
    · rw [hu] at h
      simp only at h
      rcases h2 : updateAttributes key (ds key).headings (split '\t' line) a with _ | a1
      · rw [h2] at h; cases h
      rw [h2] at h
      simp only at h
      have h3 := updateAttributes_spec hx h2
      rw [ih a1 b h]
      rcases ho : offer key (ds key) x line with _ | v
      · rw [ho] at h3
        simp only at h3
        rw [List.filterMap_cons_none (by rw [hu]; exact ho), h3]
        rfl
      · rw [ho] at h3
        simp only at h3
        rw [List.filterMap_cons_some (by rw [hu]; exact ho), firstSet_step]
        by_cases hv : Unset (a x)
        · rw [if_pos hv] at h3 ⊢
          rw [h3]; rfl
        · rw [if_neg hv] at h3 ⊢
          rw [h3]
          -- already set: nothing changes it
          generalize keys' : rest.filterMap (fun k => (U k s).bind fun line => offer k (ds k) x line) = os
          unfold offers
          rw [keys']
          rcases os with _ | ⟨o, os⟩
          · exact firstSet_nil _
          · rw [firstSet_step, if_neg hv]

/-- **C264** (partial): if the files are sorted by id and end their lines properly, then the line of a site
holds, for each of the sixteen columns that come straight from the datasets, the first value that is set (the
last one if none is) among the values in the rows of the ten datasets in the order of preference.  The row of a
dataset is the first one with the id of the site; there is none if any earlier row has an id that is not one
of the sites.  Missing: rows after such an id are lost, the first of several rows with the same id is used
instead of the last, and an empty cell counts as set (see the theorems below). -/
theorem C264_values_partial {env : Env} {ds : Key → Dataset} {n : ℕ} {out : List (List Str)}
    (ht : ∀ k, Terminated (ds k)) (hs : ∀ k, (rows k (ds k)).Pairwise (fun a b => a.1 ≤ b.1))
    (h : collate env ds n = some out) :
    ∃ sites : List Str, sites.Pairwise (· < ·) ∧
      (∀ s, s ∈ sites ↔ UsgsStyle env s ∧ ∃ k ∈ nine, Listed ds k s) ∧
      List.Forall₂ (fun s row => ∀ (i : ℕ) (att : String), attKeys[i]? = some att → att ∈ plainAtts →
        row[i]? = some (firstSet (noValue att)
          (ten.filterMap fun k => (usedRow (rows k (ds k)) sites s).bind fun line => offer k (ds k) att line)))
        (firstN n sites) out := by
  unfold collate at h
  rcases h1 : openAll ds primaryKeys with _ | cs
  · rw [h1] at h; cases h
  rcases h2 : inclusionDict env ds inclusionKeys [] with _ | d
  · rw [h1, h2] at h; cases h
  rw [h1, h2] at h
  simp only at h
  obtain ⟨d1, d2, d3⟩ := inclusionDict_spec h2
  have hmem : ∀ s, s ∈ allSiteIds d ↔ UsgsStyle env s ∧ ∃ k ∈ nine, Listed ds k s := by
    intro s
    rw [allSiteIds_mem, d2]
    constructor
    · rintro ⟨k, a, b, c⟩; exact ⟨c, k, a, b⟩
    · rintro ⟨c, k, a, b⟩; exact ⟨k, a, b, c⟩
  refine ⟨allSiteIds d, allSiteIds_sorted d d1, hmem, ?_⟩
  have hne : ∀ t ∈ allSiteIds d, t ≠ [] := by
    intro t htm
    have := ((hmem t).mp htm).1.1
    rintro rfl
    simp at this
  have hI : ∀ k ∈ primaryKeys, Inv k (cs k) (allSiteIds d) (fun t => usedRow (rows k (ds k)) (allSiteIds d) t) :=
    fun k hk => openFile_inv (ht k) (hs k) (openAll_spec ds primaryKeys cs h1 k hk) _ hne
  have hl := siteLoop_inv env ds d n _ _ 0 cs out (allSiteIds_sorted d d1) hI h
  rw [taken_zero] at hl
  refine hl.imp ?_
  rintro s row ⟨a, b, incl, e1, e2, rfl⟩ i att hi hatt
  have hlt : i < attKeys.length := by
    rcases Nat.lt_or_ge i attKeys.length with hl | hl
    · exact hl
    · rw [List.getElem?_eq_none hl] at hi; cases hi
  have hu : att ∉ unitAtts ∧ att ∉ lookupAtts ∧ defaultAtts env s att = noValue att := by
    have : ∀ att ∈ plainAtts, att ∉ unitAtts ∧ att ∉ lookupAtts := by decide +kernel
    refine ⟨(this att hatt).1, (this att hatt).2, ?_⟩
    have h3 : ∀ att ∈ plainAtts, att ≠ "site_id" ∧ att ≠ "site_url" ∧ att ≠ "hlr_code" := by decide +kernel
    obtain ⟨n1, n2, n3⟩ := h3 att hatt
    unfold defaultAtts noValue
    rw [if_neg n1]
    by_cases hm : att ∈ ["lon", "lat", "elev", "area", "minlon", "maxlon", "minlat", "maxlat"]
    · rw [if_pos hm, if_pos hm]
    · rw [if_neg hm, if_neg hm, if_neg n2, if_neg n3]; rfl
  rw [List.getElem?_append_left (by rw [List.length_map]; exact hlt), List.getElem?_map, hi]
  simp only [Option.map_some, Option.some.injEq]
  rw [lookups_other hu.2.1 e2, applyRows_spec ds _ s hu.1 _ _ _ e1, hu.2.2]
  rfl

/-- **C264**, without rows that are lost: if in addition every id in the files is the id of a site, then the row
of a dataset is simply its first row with the id of the site. -/
theorem C264_values_known_partial {env : Env} {ds : Key → Dataset} {n : ℕ} {out : List (List Str)}
    (ht : ∀ k, Terminated (ds k)) (hs : ∀ k, (rows k (ds k)).Pairwise (fun a b => a.1 ≤ b.1))
    (hk : ∀ k, ∀ q ∈ rows k (ds k), UsgsStyle env q.1 ∧ ∃ k' ∈ nine, Listed ds k' q.1)
    (h : collate env ds n = some out) :
    ∃ sites : List Str, sites.Pairwise (· < ·) ∧
      (∀ s, s ∈ sites ↔ UsgsStyle env s ∧ ∃ k ∈ nine, Listed ds k s) ∧
      List.Forall₂ (fun s row => ∀ (i : ℕ) (att : String), attKeys[i]? = some att → att ∈ plainAtts →
        row[i]? = some (firstSet (noValue att)
          (ten.filterMap fun k => (rowOf (rows k (ds k)) s).bind fun line => offer k (ds k) att line)))
        (firstN n sites) out := by
  obtain ⟨sites, h1, h2, h3⟩ := C264_values_partial ht hs h
  refine ⟨sites, h1, h2, h3.imp ?_⟩
  intro s row hr i att hi ha
  rw [hr i att hi ha]
  congr 2
  apply List.filterMap_congr
  intro k _
  have : usedRow (rows k (ds k)) sites s = rowOf (rows k (ds k)) s := by
    unfold usedRow rowOf
    rw [if_neg]
    rintro ⟨q, hq, _, hn⟩
    exact hn ((h2 _).mpr (hk k q hq))
  rw [this]

/-! ### A concrete collation -/

/-- An environment for the examples: letters are recognised, nothing is looked up. -/
def env0 : Env where
  alpha := Char.isAlpha
  siteUrl := id
  longName := id
  huc12 := fun _ => none
  hucUrl := id
  nwsUrl := id
  rfc1 := fun _ => none
  rfc2 := fun _ => none
  numeric := fun _ => false
  fips := fun _ => none
  stateCode := fun _ _ => some []
  siteType := fun _ => none
  hlrCode := fun _ _ => []
  hgraph := fun _ => none
  czo := []

/-- A line of a file. -/
def mkLine (vals : List String) : Str := writeValues (vals.map String.toList) ++ ['\n']

/-- The headings of a dataset that the code looks for, after `pre`. -/
def heads (pre : List String) (key : Key) (post : List String) : List Str :=
  (pre ++ (fields key).map Prod.fst ++ post).map String.toList

/-- Two gauges in NWIS; the name of the second is not given. -/
def nwis0 (name2 : String) : Dataset where
  headings := heads ["agency_cd"] .nwis ["data_types_cd"]
  lines := [mkLine ["USGS", "1000000", "Green River", "ST", "-106.5", "39.5", "NAD83", "08", "US", "7000", "NGVD29",
      "14050001", "120", "1950", "2000", "AN"],
    mkLine ["USGS", "02000000", name2, "ST", "-107.5", "38.5", "NAD83", "08", "US", "6000", "NGVD29",
      "14050001", "-9999", "1950", "2000", "N"]]

/-- Rows from the API. -/
def api0 (ids : List (String × String)) : Dataset where
  headings := heads [] .api []
  lines := ids.map fun p => mkLine [p.1, "ABCC2", "CBRFC", p.2, "CO", "-107.5", "38.5", "6000", "HGIRG"]

/-- An empty file. -/
def empty0 (key : Key) : Dataset := ⟨heads [] key [], []⟩

/-- The files of the examples. -/
def files (d1 d2 d3 d4 : Dataset) : Key → Dataset
  | .nwis => d1
  | .gages2all => d2
  | .hcdn => d3
  | .api => d4
  | k => empty0 k

/-- Some columns of the result. -/
def columns (atts : List String) (ds : Key → Dataset) : Option (List (List String)) :=
  (collate env0 ds 0).map fun out => out.map fun row =>
    atts.map fun a => String.ofList (row.getD (attKeys.idxOf a) [])

-- both gauges are found, the name of the second one comes from the API
example : columns ["site_id", "site_name", "area", "pedts_obs"]
    (files (nwis0 "-") (empty0 .gages2all) (empty0 .hcdn) (api0 [("02000000", "White River")]))
    = some [["01000000", "Green River", "120", "-"], ["02000000", "White River", "-9999", "HGIRG"]] := by
  decide +kernel

/-- **C264** (violated): one row in a file for a gauge that is in none of the nine datasets makes `collate`
ignore all rows after it. -/
theorem C264_lost_rows_violated : columns ["site_id", "site_name", "pedts_obs"]
    (files (nwis0 "-") (empty0 .gages2all) (empty0 .hcdn)
      (api0 [("01999999", "Blue River"), ("02000000", "White River")]))
    = some [["01000000", "Green River", "-"], ["02000000", "-", "-"]] := by
  decide +kernel

/-- **C264** (violated): an empty cell hides the value that a later dataset has. -/
theorem C264_empty_cell_violated : columns ["site_id", "site_name"]
    (files (nwis0 "") (empty0 .gages2all) (empty0 .hcdn) (api0 [("02000000", "White River")]))
    = some [["01000000", "Green River"], ["02000000", ""]] := by
  decide +kernel

/-- **C264** (violated): of several rows with the same id the first one is used, not the last one. -/
theorem C264_repeated_violated : columns ["site_id", "site_name"]
    (files (nwis0 "-") (empty0 .gages2all) (empty0 .hcdn)
      (api0 [("02000000", "White River"), ("02000000", "White River at Meeker")]))
    = some [["01000000", "Green River"], ["02000000", "White River"]] := by
  decide +kernel

-- the files of the example meet the hypotheses of `C264_values_known_partial`
example : (∀ k, Terminated (files (nwis0 "-") (empty0 .gages2all) (empty0 .hcdn) (api0 [("02000000", "White River")]) k)) ∧
    (∀ k, (rows k (files (nwis0 "-") (empty0 .gages2all) (empty0 .hcdn)
      (api0 [("02000000", "White River")]) k)).Pairwise (fun a b => a.1 ≤ b.1)) := by
  constructor
  · intro k; unfold Terminated; cases k <;> decide +kernel
  · intro k; cases k <;> decide +kernel

/-! ## C265: the units -/

/-- The unit that a dataset puts next to the area, if nothing is there yet. -/
def areaLabel : Key → Option Str
  | .nwis => some "mi2".toList
  | .gages2all => some "km2".toList
  | .hcdn => some "mi2".toList
  | .mopex => some "mi2".toList
  | _ => none

/-- The unit that a dataset puts next to the elevation. -/
def elevLabel : Key → Option Str
  | .nwis => some "ft".toList
  | .gages2all => some "m".toList
  | .hcdn => some "ft".toList
  | .mopex => some "ft".toList
  | _ => none

theorem units_labels {key : Key} {headings vals : List Str} {a b : Atts} (h : units key headings vals a = some b) :
    (b "area_units" = if key = .nwis ∨ a "area_units" = dash then (areaLabel key).getD (a "area_units") else a "area_units") ∧
    (b "elev_units" = if key = .nwis ∨ a "elev_units" = dash then (elevLabel key).getD (a "elev_units") else a "elev_units") := by
  have hset : ∀ (a : Atts) (k x : String) (v : Str), x ≠ k → set a k v x = a x := by
    intro a k x v hx; unfold set; rw [if_neg hx]
  have hself : ∀ (a : Atts) (k : String) (v : Str), set a k v k = v := by
    intro a k v; unfold set; rw [if_pos rfl]
  have hdne : ∀ (a : Atts) (k v x : String), x ≠ k → setDash a k v x = a x := by
    intro a k v x hx; unfold setDash
    by_cases hd : a k = dash
    · rw [if_pos hd, hset _ _ _ _ hx]
    · rw [if_neg hd]
  have hds : ∀ (a : Atts) (k v : String), setDash a k v k = if a k = dash then v.toList else a k := by
    intro a k v; unfold setDash
    by_cases hd : a k = dash
    · rw [if_pos hd, if_pos hd, hself]
    · rw [if_neg hd, if_neg hd]
  cases key <;> simp only [units] at h
  case nwis =>
    rcases h1 : index headings "data_types_cd" with _ | dcol
    · rw [h1] at h; cases h
    rw [h1] at h
    simp only at h
    rcases h2 : vals[dcol]? with _ | v
    · rw [h2] at h; cases h
    rw [h2] at h
    simp only at h
    have key : ∀ b' : Atts, b' = set (set a "elev_units" "ft".toList) "area_units" "mi2".toList →
        b' "area_units" = "mi2".toList ∧ b' "elev_units" = "ft".toList := by
      rintro b' rfl
      exact ⟨hself _ _ _, by rw [hset _ _ _ _ (by decide), hself]⟩
    obtain ⟨k1, k2⟩ := key _ rfl
    rw [if_pos (Or.inl rfl), if_pos (Or.inl rfl)]
    simp only [areaLabel, elevLabel, Option.getD_some]
    generalize strip v = w at h
    rcases w with _ | ⟨c1, _ | ⟨c2, w⟩⟩
    · simp only [Option.some.injEq] at h; rw [← h]; exact ⟨k1, k2⟩
    · simp only [Option.some.injEq] at h; rw [← h]; exact ⟨k1, k2⟩
    · simp only [Option.some.injEq] at h; rw [← h, hset _ "stage_data" "area_units" _ (by decide),
        hset _ "stage_data" "elev_units" _ (by decide)]
      exact ⟨k1, k2⟩
  case gages2all =>
    rcases h1 : vals[25]? with _ | x1
    · rw [h1] at h; cases h
    rcases h2 : vals[22]? with _ | x2
    · rw [h1, h2] at h; cases h
    rcases h3 : vals[24]? with _ | x3
    · rw [h1, h2, h3] at h; cases h
    rw [h1, h2, h3] at h
    simp only [Option.some.injEq] at h
    rw [← h]
    constructor
    · rw [hset _ _ _ _ (by decide), hset _ _ _ _ (by decide), hset _ _ _ _ (by decide), hdne _ _ _ _ (by decide),
        hdne _ _ _ _ (by decide), hdne _ _ _ _ (by decide), hdne _ _ _ _ (by decide), hdne _ _ _ _ (by decide), hds]
      by_cases hd : a "area_units" = dash
      · rw [if_pos hd, if_pos (Or.inr hd)]; rfl
      · rw [if_neg hd, if_neg (by rintro (h | h); · cases h
                                  · exact hd h)]
    · rw [hset _ _ _ _ (by decide), hset _ _ _ _ (by decide), hset _ _ _ _ (by decide), hdne _ _ _ _ (by decide),
        hdne _ _ _ _ (by decide), hdne _ _ _ _ (by decide), hdne _ _ _ _ (by decide), hds, hdne _ _ _ _ (by decide)]
      by_cases hd : a "elev_units" = dash
      · rw [if_pos hd, if_pos (Or.inr hd)]; rfl
      · rw [if_neg hd, if_neg (by rintro (h | h); · cases h
                                  · exact hd h)]
  case hcdn =>
    simp only [Option.some.injEq] at h
    rw [← h]
    constructor
    · rw [hdne _ _ _ _ (by decide), hds]
      by_cases hd : a "area_units" = dash
      · rw [if_pos hd, if_pos (Or.inr hd)]; rfl
      · rw [if_neg hd, if_neg (by rintro (h | h); · cases h
                                  · exact hd h)]
    · rw [hds, hdne _ _ _ _ (by decide)]
      by_cases hd : a "elev_units" = dash
      · rw [if_pos hd, if_pos (Or.inr hd)]; rfl
      · rw [if_neg hd, if_neg (by rintro (h | h); · cases h
                                  · exact hd h)]
  case mopex =>
    simp only [Option.some.injEq] at h
    rw [← h]
    constructor
    · rw [hdne _ _ _ _ (by decide), hds]
      by_cases hd : a "area_units" = dash
      · rw [if_pos hd, if_pos (Or.inr hd)]; rfl
      · rw [if_neg hd, if_neg (by rintro (h | h); · cases h
                                  · exact hd h)]
    · rw [hds, hdne _ _ _ _ (by decide)]
      by_cases hd : a "elev_units" = dash
      · rw [if_pos hd, if_pos (Or.inr hd)]; rfl
      · rw [if_neg hd, if_neg (by rintro (h | h); · cases h
                                  · exact hd h)]
  all_goals
    simp only [Option.some.injEq] at h
    subst h
    simp [areaLabel, elevLabel]

theorem fields_units (key : Key) (x : String) (hx : x = "area_units" ∨ x = "elev_units") :
    (fields key).find? (fun f => f.2 = x) = none := by
  rcases hx with rfl | rfl <;> cases key <;> decide +kernel

theorem updateAttributes_labels {key : Key} {headings vals : List Str} {a b : Atts}
    (h : updateAttributes key headings vals a = some b) :
    (b "area_units" = if key = .nwis ∨ a "area_units" = dash then (areaLabel key).getD (a "area_units") else a "area_units") ∧
    (b "elev_units" = if key = .nwis ∨ a "elev_units" = dash then (elevLabel key).getD (a "elev_units") else a "elev_units") := by
  unfold updateAttributes at h
  rcases h1 : units key headings vals a with _ | a1
  · rw [h1] at h; cases h
  rw [h1] at h
  simp only at h
  have hn : ((fields key).map Prod.snd).Nodup := by cases key <;> decide +kernel
  have f1 := fill_spec (x := "area_units") (by decide) (fields key) hn h
  have f2 := fill_spec (x := "elev_units") (by decide) (fields key) hn h
  rw [fields_units key _ (Or.inl rfl)] at f1
  rw [fields_units key _ (Or.inr rfl)] at f2
  simp only at f1 f2
  rw [f1, f2]
  exact units_labels h1

theorem applyRows_label (ds : Key → Dataset) (U : Key → Str → Option Str) (s : Str) (x : String)
    (lab : Key → Option Str) (hl : (x = "area_units" ∧ lab = areaLabel) ∨ (x = "elev_units" ∧ lab = elevLabel))
    (keys : List Key) (hk : ∀ k ∈ keys, k ≠ .nwis) : ∀ (a b : Atts), applyRows ds U s keys a = some b →
    b x = if a x = dash then ((keys.filterMap fun k => (U k s).bind fun _ => lab k).head?).getD dash else a x := by
  induction keys with
  | nil =>
    intro a b h
    simp only [applyRows, Option.some.injEq] at h
    subst h
    by_cases hd : a x = dash
    · rw [if_pos hd]; exact hd
    · rw [if_neg hd]
  | cons key rest ih =>
    intro a b h
    have hk0 := hk key (List.mem_cons_self ..)
    have hkr := fun k h => hk k (List.mem_cons_of_mem _ h)
    simp only [applyRows] at h
    rcases hu : U key s with _ | line
    · rw [hu] at h
      rw [List.filterMap_cons_none (by rw [hu]; rfl)]
      exact ih hkr a b h
    · rw [hu] at h
      simp only at h
      rcases h2 : updateAttributes key (ds key).headings (split '\t' line) a with _ | a1
      · rw [h2] at h; cases h
      rw [h2] at h
      simp only at h
      have hx : a1 x = if key = .nwis ∨ a x = dash then (lab key).getD (a x) else a x := by
        rcases hl with ⟨rfl, rfl⟩ | ⟨rfl, rfl⟩
        · exact (updateAttributes_labels h2).1
        · exact (updateAttributes_labels h2).2
      have hb := ih hkr a1 b h
      have hnd : ∀ u, lab key = some u → u ≠ dash := by
        rcases hl with ⟨rfl, rfl⟩ | ⟨rfl, rfl⟩ <;> cases key <;> intro u hu <;>
          simp only [areaLabel, elevLabel, Option.some.injEq, reduceCtorEq] at hu <;> subst hu <;> decide +kernel
      by_cases hd : a x = dash
      · rw [if_pos hd]
        rw [if_pos (Or.inr hd)] at hx
        rcases hlk : lab key with _ | u
        · rw [List.filterMap_cons_none (by rw [hu]; exact hlk), hb]
          rw [hlk] at hx
          simp only [Option.getD_none] at hx
          rw [hx, if_pos hd]
        · rw [List.filterMap_cons_some (by rw [hu]; exact hlk), hb]
          rw [hlk] at hx
          simp only [Option.getD_some] at hx
          rw [hx, if_neg (hnd u hlk)]
          rfl
      · rw [if_neg hd]
        rw [if_neg (by rintro (h | h); · exact hk0 h
                       · exact hd h)] at hx
        rw [hb, hx, if_neg hd]

/-- The label is that of the first dataset with a row for the site. -/
theorem applyRows_label_all (ds : Key → Dataset) (U : Key → Str → Option Str) (s : Str) (x : String)
    (lab : Key → Option Str) (hl : (x = "area_units" ∧ lab = areaLabel) ∨ (x = "elev_units" ∧ lab = elevLabel))
    (a b : Atts) (ha : a x = dash) (h : applyRows ds U s primaryKeys a = some b) :
    b x = ((primaryKeys.filterMap fun k => (U k s).bind fun _ => lab k).head?).getD dash := by
  have hp : primaryKeys = .nwis :: primaryKeys.tail := rfl
  rw [hp] at h ⊢
  have ht : ∀ k ∈ primaryKeys.tail, k ≠ .nwis := by decide
  simp only [applyRows] at h
  rcases hu : U .nwis s with _ | line
  · rw [hu] at h
    rw [List.filterMap_cons_none (by rw [hu]; rfl), applyRows_label ds U s x lab hl _ ht a b h, if_pos ha]
  · rw [hu] at h
    simp only at h
    rcases h2 : updateAttributes .nwis (ds .nwis).headings (split '\t' line) a with _ | a1
    · rw [h2] at h; cases h
    rw [h2] at h
    simp only at h
    have hx : a1 x = (lab .nwis).getD (a x) := by
      rcases hl with ⟨rfl, rfl⟩ | ⟨rfl, rfl⟩
      · rw [(updateAttributes_labels h2).1, if_pos (Or.inl rfl)]
      · rw [(updateAttributes_labels h2).2, if_pos (Or.inl rfl)]
    obtain ⟨u, hu2, hne⟩ : ∃ u, lab .nwis = some u ∧ u ≠ dash := by
      rcases hl with ⟨rfl, rfl⟩ | ⟨rfl, rfl⟩
      · exact ⟨_, rfl, by decide +kernel⟩
      · exact ⟨_, rfl, by decide +kernel⟩
    rw [hu2] at hx
    simp only [Option.getD_some] at hx
    rw [List.filterMap_cons_some (by rw [hu]; exact hu2), applyRows_label ds U s x lab hl _ ht a1 b h, hx, if_neg hne]
    rfl

/-- The rows behind each line of the result, with the values of the attributes before the last look-ups. -/
theorem collate_rows {env : Env} {ds : Key → Dataset} {n : ℕ} {out : List (List Str)}
    (ht : ∀ k, Terminated (ds k)) (hs : ∀ k, (rows k (ds k)).Pairwise (fun a b => a.1 ≤ b.1))
    (h : collate env ds n = some out) :
    ∃ sites : List Str, sites.Pairwise (· < ·) ∧
      (∀ s, s ∈ sites ↔ UsgsStyle env s ∧ ∃ k ∈ nine, Listed ds k s) ∧
      List.Forall₂ (fun s row => ∃ a b incl,
        applyRows ds (fun k t => usedRow (rows k (ds k)) sites t) s primaryKeys (defaultAtts env s) = some a ∧
        lookups env s a = some b ∧ row = attKeys.map b ++ incl) (firstN n sites) out := by
  unfold collate at h
  rcases h1 : openAll ds primaryKeys with _ | cs
  · rw [h1] at h; cases h
  rcases h2 : inclusionDict env ds inclusionKeys [] with _ | d
  · rw [h1, h2] at h; cases h
  rw [h1, h2] at h
  simp only at h
  obtain ⟨d1, d2, d3⟩ := inclusionDict_spec h2
  have hmem : ∀ s, s ∈ allSiteIds d ↔ UsgsStyle env s ∧ ∃ k ∈ nine, Listed ds k s := by
    intro s
    rw [allSiteIds_mem, d2]
    constructor
    · rintro ⟨k, a, b, c⟩; exact ⟨c, k, a, b⟩
    · rintro ⟨c, k, a, b⟩; exact ⟨k, a, b, c⟩
  refine ⟨allSiteIds d, allSiteIds_sorted d d1, hmem, ?_⟩
  have hne : ∀ t ∈ allSiteIds d, t ≠ [] := by
    intro t htm
    have := ((hmem t).mp htm).1.1
    rintro rfl
    simp at this
  have hI : ∀ k ∈ primaryKeys, Inv k (cs k) (allSiteIds d) (fun t => usedRow (rows k (ds k)) (allSiteIds d) t) :=
    fun k hk => openFile_inv (ht k) (hs k) (openAll_spec ds primaryKeys cs h1 k hk) _ hne
  have hl := siteLoop_inv env ds d n (fun k t => usedRow (rows k (ds k)) (allSiteIds d) t) _ 0 cs out
    (allSiteIds_sorted d d1) hI h
  rw [taken_zero] at hl
  exact hl

/-- **C265** (partial): the unit next to a drainage area is that of the first of the four datasets with areas
(NWIS, GAGES-II, HCDN, MOPEX) in which a row for the site is found; so it is the unit of the area on the line if
the area in that row is set.  Missing: if it is not set, then the area is taken from another dataset, but the
unit stays. -/
theorem C265_area_partial {env : Env} {ds : Key → Dataset} {n : ℕ} {out : List (List Str)}
    (ht : ∀ k, Terminated (ds k)) (hs : ∀ k, (rows k (ds k)).Pairwise (fun a b => a.1 ≤ b.1))
    (h : collate env ds n = some out) :
    ∃ sites : List Str, sites.Pairwise (· < ·) ∧
      (∀ s, s ∈ sites ↔ UsgsStyle env s ∧ ∃ k ∈ nine, Listed ds k s) ∧
      List.Forall₂ (fun s row => ∀ k line,
        ([.nwis, .gages2all, .hcdn, .mopex] : List Key).find?
          (fun k => (usedRow (rows k (ds k)) sites s).isSome) = some k →
        usedRow (rows k (ds k)) sites s = some line →
        row[attKeys.idxOf "area_units"]? = some (areaUnit k) ∧
        ∀ v, offer k (ds k) "area" line = some v → ¬ Unset v → row[attKeys.idxOf "area"]? = some v)
        (firstN n sites) out := by
  obtain ⟨sites, h1, h2, h3⟩ := collate_rows ht hs h
  refine ⟨sites, h1, h2, h3.imp ?_⟩
  rintro s row ⟨a, b, incl, e1, e2, rfl⟩ k line hk hu
  set U : Key → Str → Option Str := fun k t => usedRow (rows k (ds k)) sites t with hU
  have hcell : ∀ (i : ℕ) (att : String), attKeys[i]? = some att → (attKeys.map b ++ incl)[i]? = some (b att) := by
    intro i att hi
    have hlt : i < attKeys.length := by
      rcases Nat.lt_or_ge i attKeys.length with hl | hl
      · exact hl
      · rw [List.getElem?_eq_none hl] at hi; cases hi
    rw [List.getElem?_append_left (by rw [List.length_map]; exact hlt), List.getElem?_map, hi]
    rfl
  have hlab := applyRows_label_all ds U s "area_units" areaLabel (Or.inl ⟨rfl, rfl⟩) _ a (by rfl) e1
  have hval := applyRows_spec ds U s (x := "area") (by decide +kernel) primaryKeys _ _ e1
  have hprim : primaryKeys = [.nwis, .gages2all, .gages2ref, .sb3, .fps, .hcdn, .hads, .camels, .mopex, .api] := rfl
  have hoff : ∀ k', k' = .gages2ref ∨ k' = .sb3 ∨ k' = .fps ∨ k' = .hads ∨ k' = .camels ∨ k' = .api →
      ∀ l, offer k' (ds k') "area" l = none := by
    intro k' hk' l
    have : (fields k').find? (fun f => f.2 = "area") = none := by
      rcases hk' with rfl | rfl | rfl | rfl | rfl | rfl <;> decide +kernel
    unfold offer
    rw [this]
    rfl
  have hoff' : ∀ k', k' = .gages2ref ∨ k' = .sb3 ∨ k' = .fps ∨ k' = .hads ∨ k' = .camels ∨ k' = .api →
      ((U k' s).bind fun l => offer k' (ds k') "area" l) = none := by
    intro k' hk'
    rcases U k' s with _ | l
    · rfl
    · exact hoff k' hk' l
  have hlabn : ∀ k', k' = .gages2ref ∨ k' = .sb3 ∨ k' = .fps ∨ k' = .hads ∨ k' = .camels ∨ k' = .api →
      ((U k' s).bind fun _ => areaLabel k') = none := by
    intro k' hk'
    rcases U k' s with _ | l
    · rfl
    · rcases hk' with rfl | rfl | rfl | rfl | rfl | rfl <;> rfl
  have hfour : ∀ {β : Type} (g : Key → Option β),
      (∀ k', k' = .gages2ref ∨ k' = .sb3 ∨ k' = .fps ∨ k' = .hads ∨ k' = .camels ∨ k' = .api → g k' = none) →
      primaryKeys.filterMap g = ([.nwis, .gages2all, .hcdn, .mopex] : List Key).filterMap g := by
    intro β g hg
    rw [hprim]
    simp only [List.filterMap_cons, hg _ (Or.inl rfl), hg _ (Or.inr (Or.inl rfl)),
      hg _ (Or.inr (Or.inr (Or.inl rfl))), hg _ (Or.inr (Or.inr (Or.inr (Or.inl rfl)))),
      hg _ (Or.inr (Or.inr (Or.inr (Or.inr (Or.inl rfl))))), hg _ (Or.inr (Or.inr (Or.inr (Or.inr (Or.inr rfl)))))]
  -- the datasets before `k` have no row
  have hsplit : ∃ pre post, ([.nwis, .gages2all, .hcdn, .mopex] : List Key) = pre ++ k :: post ∧ ∀ k' ∈ pre, U k' s = none := by
    obtain ⟨_, pre, post, e, hpre⟩ := List.find?_eq_some_iff_append.mp hk
    refine ⟨pre, post, e, fun k' hk' => ?_⟩
    have := hpre k' hk'
    simp only [Bool.not_eq_true', Option.isSome_eq_false_iff, Option.isNone_iff_eq_none] at this
    exact this
  obtain ⟨pre, post, hp, hpre⟩ := hsplit
  have hnone : ∀ {β : Type} (g : Key → Option β), (∀ k' ∈ pre, g k' = none) → pre.filterMap g = [] := by
    intro β g hg
    rw [List.filterMap_eq_nil_iff]
    exact hg
  have hk4 : k ∈ ([.nwis, .gages2all, .hcdn, .mopex] : List Key) := List.mem_of_find?_eq_some hk
  have hau : areaLabel k = some (areaUnit k) := by
    simp only [List.mem_cons, List.not_mem_nil, or_false] at hk4
    rcases hk4 with rfl | rfl | rfl | rfl <;> rfl
  have hu' : U k s = some line := hu
  constructor
  · rw [hcell _ "area_units" (by decide +kernel), lookups_other (by decide +kernel) e2, hlab, hfour _ hlabn, hp,
      List.filterMap_append, hnone _ (fun k' hk' => by rw [hpre k' hk']; rfl), List.nil_append,
      List.filterMap_cons_some (by rw [hu']; exact hau)]
    rfl
  · intro v hv hset
    rw [hcell _ "area" (by decide +kernel), lookups_other (by decide +kernel) e2, hval]
    unfold offers
    rw [hfour _ hoff', hp, List.filterMap_append, hnone _ (fun k' hk' => by rw [hpre k' hk']; rfl), List.nil_append,
      List.filterMap_cons_some (by rw [hu']; exact hv)]
    have hd : defaultAtts env s "area" = "-9999".toList := rfl
    rw [hd, firstSet_step, if_pos (show Unset "-9999".toList from Or.inr (Or.inr rfl))]
    generalize post.filterMap (fun k => (U k s).bind fun line => offer k (ds k) "area" line) = os
    rcases os with _ | ⟨o, os⟩
    · rw [firstSet_nil]
    · rw [firstSet_step, if_neg hset]

/-- **C265** (partial): the elevation on the line of a gauge is that of NWIS, in feet, if NWIS has a row for it with
an elevation; and it is that of HCDN, in feet, if HCDN has one and neither NWIS nor GAGES-II has a row for the
gauge.  Missing: gauges in GAGES-II, which has no elevations, get "m". -/
theorem C265_elev_partial {env : Env} {ds : Key → Dataset} {n : ℕ} {out : List (List Str)}
    (ht : ∀ k, Terminated (ds k)) (hs : ∀ k, (rows k (ds k)).Pairwise (fun a b => a.1 ≤ b.1))
    (h : collate env ds n = some out) :
    ∃ sites : List Str, sites.Pairwise (· < ·) ∧
      (∀ s, s ∈ sites ↔ UsgsStyle env s ∧ ∃ k ∈ nine, Listed ds k s) ∧
      List.Forall₂ (fun s row => ∀ k line v,
        (k = .nwis ∨ (k = .hcdn ∧ usedRow (rows .nwis (ds .nwis)) sites s = none ∧
          usedRow (rows .gages2all (ds .gages2all)) sites s = none)) →
        usedRow (rows k (ds k)) sites s = some line → offer k (ds k) "elev" line = some v → ¬ Unset v →
        row[attKeys.idxOf "elev"]? = some v ∧ row[attKeys.idxOf "elev_units"]? = some "ft".toList)
        (firstN n sites) out := by
  obtain ⟨sites, h1, h2, h3⟩ := collate_rows ht hs h
  refine ⟨sites, h1, h2, h3.imp ?_⟩
  rintro s row ⟨a, b, incl, e1, e2, rfl⟩ k line v hk hu ho hv
  set U : Key → Str → Option Str := fun k t => usedRow (rows k (ds k)) sites t with hU
  have hcell : ∀ (i : ℕ) (att : String), attKeys[i]? = some att → (attKeys.map b ++ incl)[i]? = some (b att) := by
    intro i att hi
    have hlt : i < attKeys.length := by
      rcases Nat.lt_or_ge i attKeys.length with hl | hl
      · exact hl
      · rw [List.getElem?_eq_none hl] at hi; cases hi
    rw [List.getElem?_append_left (by rw [List.length_map]; exact hlt), List.getElem?_map, hi]
    rfl
  have hlab := applyRows_label_all ds U s "elev_units" elevLabel (Or.inr ⟨rfl, rfl⟩) _ a (by rfl) e1
  have hval := applyRows_spec ds U s (x := "elev") (by decide +kernel) primaryKeys _ _ e1
  have hu' : U k s = some line := hu
  have hset : ∀ os : List Str, firstSet "-9999".toList (v :: os) = v := by
    intro os
    rw [firstSet_step, if_pos (show Unset "-9999".toList from Or.inr (Or.inr rfl))]
    rcases os with _ | ⟨o, os⟩
    · rw [firstSet_nil]
    · rw [firstSet_step, if_neg hv]
  have hd : defaultAtts env s "elev" = "-9999".toList := rfl
  rw [hcell _ "elev" (by decide +kernel), hcell _ "elev_units" (by decide +kernel),
    lookups_other (x := "elev") (by decide +kernel) e2, lookups_other (x := "elev_units") (by decide +kernel) e2,
    hval, hlab, hd]
  rcases hk with rfl | ⟨rfl, hn, hg⟩
  · have hp : primaryKeys = .nwis :: primaryKeys.tail := rfl
    unfold offers
    rw [hp, List.filterMap_cons_some (by rw [hu']; exact ho), hset,
      List.filterMap_cons_some (b := "ft".toList) (by rw [hu']; rfl)]
    exact ⟨rfl, rfl⟩
  · have hn' : U .nwis s = none := hn
    have hg' : U .gages2all s = none := hg
    have hp : primaryKeys = .nwis :: .gages2all :: .gages2ref :: .sb3 :: .fps :: .hcdn :: primaryKeys.drop 6 := rfl
    have ho3 : ∀ k', k' = .gages2ref ∨ k' = .sb3 ∨ k' = .fps →
        ((U k' s).bind fun l => offer k' (ds k') "elev" l) = none ∧ ((U k' s).bind fun _ => elevLabel k') = none := by
      intro k' hk'
      rcases U k' s with _ | l
      · exact ⟨rfl, rfl⟩
      · rcases hk' with rfl | rfl | rfl <;> exact ⟨rfl, rfl⟩
    unfold offers
    rw [hp, List.filterMap_cons_none (by rw [hn']; rfl), List.filterMap_cons_none (by rw [hg']; rfl),
      List.filterMap_cons_none (by exact (ho3 _ (Or.inl rfl)).1), List.filterMap_cons_none (by exact (ho3 _ (Or.inr (Or.inl rfl))).1),
      List.filterMap_cons_none (by exact (ho3 _ (Or.inr (Or.inr rfl))).1), List.filterMap_cons_some (by rw [hu']; exact ho), hset,
      List.filterMap_cons_none (by rw [hn']; rfl), List.filterMap_cons_none (by rw [hg']; rfl),
      List.filterMap_cons_none (by exact (ho3 _ (Or.inl rfl)).2), List.filterMap_cons_none (by exact (ho3 _ (Or.inr (Or.inl rfl))).2),
      List.filterMap_cons_none (by exact (ho3 _ (Or.inr (Or.inr rfl))).2),
      List.filterMap_cons_some (b := "ft".toList) (by rw [hu']; rfl)]
    exact ⟨rfl, rfl⟩

/-- A gauge in GAGES-II; `area` is its drainage area in square kilometres. -/
def gages0 (area : String) : Dataset where
  headings := heads [] .gages2all []
  lines := [mkLine (["03000000", "Black River", "East", area, "39.5", "-79.5", "-80", "-79", "39", "40", "WV"] ++
    List.replicate 15 "-")]

/-- The same gauge in HCDN, with the area in square miles and the elevation in feet. -/
def hcdn0 : Dataset where
  headings := heads [] .hcdn []
  lines := [mkLine ["03000000", "Black River", "05020004", "100", "WV", "2000"]]

/-- **C265** (violated): an elevation in feet is labelled as metres. -/
theorem C265_elev_violated : columns ["site_id", "elev", "elev_units"]
    (files (nwis0 "-") (gages0 "259") hcdn0 (api0 []))
    = some [["01000000", "7000", "ft"], ["02000000", "6000", "ft"], ["03000000", "2000", "m"]] := by
  decide +kernel

/-- **C265** (violated): an area in square miles is labelled as square kilometres. -/
theorem C265_area_violated : columns ["site_id", "area", "area_units"]
    (files (nwis0 "-") (gages0 "-9999") hcdn0 (api0 []))
    = some [["01000000", "120", "mi2"], ["02000000", "-9999", "mi2"], ["03000000", "100", "km2"]] := by
  decide +kernel

-- the unit is right if the area is set in GAGES-II
example : columns ["site_id", "area", "area_units"]
    (files (nwis0 "-") (gages0 "259") hcdn0 (api0 []))
    = some [["01000000", "120", "mi2"], ["02000000", "-9999", "mi2"], ["03000000", "259", "km2"]] := by
  decide +kernel

/-! ## C266: sorting a file by site id -/

theorem prefix_lt {f g r t : Str} (hf : ∀ c ∈ f, '\t' < c) (h : g < f) : g ++ '\t' :: t < f ++ '\t' :: r := by
  have h' : List.Lex (· < ·) g f := h
  show List.Lex (· < ·) _ _
  clear h
  induction h' with
  | nil => exact List.Lex.rel (hf _ (List.mem_cons_self ..))
  | cons _ ih => exact List.Lex.cons (ih fun c hc => hf c (List.mem_cons_of_mem _ hc))
  | rel h => exact List.Lex.rel h

theorem prefix_le {f g r t : Str} (hf : ∀ c ∈ f, '\t' < c)
    (h : f ++ '\t' :: r ≤ g ++ '\t' :: t) : f ≤ g := by
  by_contra hn
  exact absurd (prefix_lt hf (not_le.mp hn)) (not_lt.mpr h)

theorem strip_dark {f : Str} (hf : ∀ c ∈ f, ' ' < c) : strip f = f := by
  have hw : ∀ c, ' ' < c → Char.isWhitespace c = false := by
    intro c hc
    have h1 : c ≠ ' ' := ne_of_gt hc
    have h2 : c ≠ '\t' := by rintro rfl; revert hc; decide
    have h3 : c ≠ '\r' := by rintro rfl; revert hc; decide
    have h4 : c ≠ '\n' := by rintro rfl; revert hc; decide
    simp [Char.isWhitespace, h1, h2, h3, h4]
  have hd : ∀ l : Str, (∀ c ∈ l, ' ' < c) → l.dropWhile Char.isWhitespace = l := by
    intro l hl
    rcases l with _ | ⟨x, l⟩
    · rfl
    · rw [List.dropWhile_cons_of_neg (by simp [hw x (hl x (List.mem_cons_self ..))])]
  unfold strip
  rw [hd f hf, hd f.reverse (fun c hc => hf c (List.mem_reverse.mp hc)), List.reverse_reverse]

/-- **C266**: if the id at the start of each line has no blanks, then in the sorted file the records (the id
with its leading zero, and the other fields) are those of the original file, in the order of the ids. -/
theorem C266_sorted (lines : List Str)
    (h : ∀ l ∈ lines, ∃ f r, l = f ++ '\t' :: r ∧ ∀ c ∈ f, ' ' < c) :
    ((sortLines lines).map (idOf .api)).Pairwise (· ≤ ·) ∧
    ((sortLines lines).map fun l => (idOf .api l, (split '\t' l).tail)).Perm
      (lines.map fun l => (idOf .api l, (split '\t' l).tail)) := by
  have htab : ∀ c : Char, ' ' < c → '\t' < c := fun c hc => lt_trans (by decide) hc
  have hnt : ∀ f : Str, (∀ c ∈ f, ' ' < c) → '\t' ∉ f := fun f hf hm => lt_irrefl _ (htab _ (hf _ hm))
  have hid : ∀ (f r : Str), (∀ c ∈ f, ' ' < c) → idOf .api (f ++ '\t' :: r) = if f.length = 7 then '0' :: f else f := by
    intro f r hf
    unfold idOf
    rw [Cfg.split_append _ _ _ (hnt f hf)]
    have : strip ((f :: split '\t' r).getD (idColumn .api) []) = f := strip_dark hf
    simp only [this]
  have hpad : ∀ (f r : Str), (∀ c ∈ f, ' ' < c) →
      padLine (f ++ '\t' :: r) = (if f.length = 7 then '0' :: f else f) ++ '\t' :: r := by
    intro f r hf
    unfold padLine
    rw [Cfg.split_append _ _ _ (hnt f hf)]
    simp only [List.headD_cons, strip_dark hf]
    by_cases h7 : f.length = 7
    · rw [if_pos h7, if_pos h7]; rfl
    · rw [if_neg h7, if_neg h7]
  have hdark : ∀ f : Str, (∀ c ∈ f, ' ' < c) → ∀ c ∈ (if f.length = 7 then '0' :: f else f), ' ' < c := by
    intro f hf c hc
    by_cases h7 : f.length = 7
    · rw [if_pos h7] at hc
      rcases List.mem_cons.mp hc with rfl | hc
      · decide
      · exact hf c hc
    · rw [if_neg h7] at hc; exact hf c hc
  have hlen : ∀ f : Str, (if f.length = 7 then '0' :: f else f).length ≠ 7 := by
    intro f
    by_cases h7 : f.length = 7
    · rw [if_pos h7, List.length_cons, h7]; decide
    · rw [if_neg h7]; exact h7
  have hperm : (sortLines lines).Perm (lines.map padLine) := List.perm_insertionSort _ _
  constructor
  · have hsort : (sortLines lines).Pairwise (· ≤ ·) := List.pairwise_insertionSort _ _
    rw [List.pairwise_map]
    refine hsort.imp_of_mem ?_
    intro x y hx hy hxy
    have hform : ∀ z ∈ sortLines lines, ∃ f r, z = f ++ '\t' :: r ∧ (∀ c ∈ f, ' ' < c) ∧ f.length ≠ 7 := by
      intro z hz
      obtain ⟨l, hl, rfl⟩ := List.mem_map.mp (hperm.mem_iff.mp hz)
      obtain ⟨f, r, rfl, hf⟩ := h l hl
      exact ⟨_, r, hpad f r hf, hdark f hf, hlen f⟩
    obtain ⟨f, r, rfl, hf, hf7⟩ := hform x hx
    obtain ⟨g, t, rfl, hg, hg7⟩ := hform y hy
    rw [hid f r hf, hid g t hg, if_neg hf7, if_neg hg7]
    exact prefix_le (fun c hc => htab c (hf c hc)) hxy
  · have := hperm.map (fun l => (idOf .api l, (split '\t' l).tail))
    rw [List.map_map] at this
    refine this.trans (List.Perm.of_eq ?_)
    apply List.map_congr_left
    intro l hl
    obtain ⟨f, r, rfl, hf⟩ := h l hl
    simp only [Function.comp]
    rw [hpad f r hf, hid f r hf, hid _ r (hdark f hf), if_neg (hlen f), Cfg.split_append _ _ _ (hnt f hf),
      Cfg.split_append _ _ _ (hnt _ (hdark f hf))]
    rfl

/-- **C266** (partial): reading the sorted file gives these lines again if every line of the original file,
the last one too, ends with a newline. -/
theorem C266_file_partial (lines : List Str)
    (h : ∀ l ∈ lines, ∃ b, l = b ++ ['\n'] ∧ '\n' ∉ b) :
    split '\n' (sortLines lines).flatten = (sortLines lines).map List.dropLast ++ [[]] := by
  have hperm : (sortLines lines).Perm (lines.map padLine) := List.perm_insertionSort _ _
  have hform : ∀ z ∈ sortLines lines, ∃ b, z = b ++ ['\n'] ∧ '\n' ∉ b := by
    intro z hz
    obtain ⟨l, hl, rfl⟩ := List.mem_map.mp (hperm.mem_iff.mp hz)
    obtain ⟨b, rfl, hb⟩ := h l hl
    unfold padLine
    by_cases h7 : (strip ((split '\t' (b ++ ['\n'])).headD [])).length = 7
    · simp only [if_pos h7]
      exact ⟨'0' :: b, rfl, by simpa using hb⟩
    · simp only [if_neg h7]
      exact ⟨b, rfl, hb⟩
  generalize sortLines lines = S at hform
  induction S with
  | nil => rfl
  | cons l S ih =>
    obtain ⟨b, rfl, hb⟩ := hform l (List.mem_cons_self ..)
    rw [List.flatten_cons, List.append_assoc, List.singleton_append, Cfg.split_append _ _ _ hb,
      ih (fun z hz => hform z (List.mem_cons_of_mem _ hz)), List.map_cons, List.dropLast_concat]
    rfl

/-- **C266** (violated): a last line without newline is joined to the line that follows it after sorting. -/
theorem C266_last_line_violated :
    (split '\n' (sortLines ["02000000\tB\n".toList, "01000000\tA".toList]).flatten).map String.ofList
      = ["01000000\tA02000000\tB", ""] := by
  decide +kernel

example : (sortLines ["02000000\tB\n".toList, "1000000\tA\n".toList]).map String.ofList
    = ["01000000\tA\n", "02000000\tB\n"] := by
  decide +kernel

end Collate
