import Mathlib.Tactic.Linarith
import Mathlib.Data.List.TakeWhile
import Verif.CfgModel

/-!
# What a configuration file says (C75)
-/

set_option autoImplicit false

namespace Cfg

/-! ## Specification: the format of the file -/

/-- `n` is `w` without the whitespace around it. -/
def Trimmed (w n : Str) : Prop :=
  ∃ p s, w = p ++ n ++ s ∧ (∀ c ∈ p, c.isWhitespace = true) ∧ (∀ c ∈ s, c.isWhitespace = true) ∧
    (∀ c, n.head? = some c → c.isWhitespace = false) ∧ (∀ c, n.getLast? = some c → c.isWhitespace = false)

/-- The line is the entry `name | value | type | help`: it does not begin with `#` and has exactly three bars. -/
def IsEntry (l name value vtype : Str) : Prop :=
  l.head? ≠ some '#' ∧
  ∃ w0 w1 w2 w3, l = w0 ++ '|' :: (w1 ++ '|' :: (w2 ++ '|' :: w3)) ∧
    '|' ∉ w0 ∧ '|' ∉ w1 ∧ '|' ∉ w2 ∧ '|' ∉ w3 ∧ Trimmed w0 name ∧ Trimmed w1 value ∧ Trimmed w2 vtype

/-! ## Strings -/

theorem split_ne_nil (c : Char) (s : Str) : split c s ≠ [] := by
  cases s with
  | nil => simp [split]
  | cons x xs =>
    simp only [split]
    split_ifs
    · simp
    · split <;> simp

theorem split_no (c : Char) (w : Str) (h : c ∉ w) : split c w = [w] := by
  induction w with
  | nil => rfl
  | cons x xs ih =>
    simp only [List.mem_cons, not_or] at h
    simp only [split]
    rw [if_neg (fun e => h.1 e.symm), ih h.2]

theorem split_append (c : Char) (w rest : Str) (h : c ∉ w) : split c (w ++ c :: rest) = w :: split c rest := by
  induction w with
  | nil => simp [split]
  | cons x xs ih =>
    simp only [List.mem_cons, not_or] at h
    simp only [List.cons_append, split]
    rw [if_neg (fun e => h.1 e.symm), ih h.2]

theorem split_cons_inv (c : Char) (s w : Str) (ws : List Str) (h : split c s = w :: ws) :
    c ∉ w ∧ ((ws = [] ∧ s = w) ∨ ∃ rest, s = w ++ c :: rest ∧ split c rest = ws) := by
  induction s generalizing w ws with
  | nil =>
    simp only [split, List.cons.injEq] at h
    obtain ⟨rfl, rfl⟩ := h
    simp
  | cons x xs ih =>
    simp only [split] at h
    split_ifs at h with hx
    · simp only [List.cons.injEq] at h
      obtain ⟨rfl, rfl⟩ := h
      exact ⟨by simp, Or.inr ⟨xs, by simp [hx], rfl⟩⟩
    · cases hs : split c xs with
      | nil => exact absurd hs (split_ne_nil c xs)
      | cons v vs =>
        rw [hs] at h
        simp only [List.cons.injEq] at h
        obtain ⟨rfl, rfl⟩ := h
        obtain ⟨h1, h2⟩ := ih v vs hs
        refine ⟨by simp [h1, Ne.symm hx], ?_⟩
        rcases h2 with ⟨h2, h3⟩ | ⟨rest, h2, h3⟩
        · exact Or.inl ⟨h2, by rw [h3]⟩
        · exact Or.inr ⟨rest, by rw [h2]; rfl, h3⟩

theorem split_four (l w0 w1 w2 w3 : Str) : split '|' l = [w0, w1, w2, w3] ↔
    l = w0 ++ '|' :: (w1 ++ '|' :: (w2 ++ '|' :: w3)) ∧ '|' ∉ w0 ∧ '|' ∉ w1 ∧ '|' ∉ w2 ∧ '|' ∉ w3 := by
  constructor
  · intro h
    obtain ⟨a0, ⟨h, -⟩ | ⟨r0, e0, h0⟩⟩ := split_cons_inv _ _ _ _ h
    · simp at h
    obtain ⟨a1, ⟨h, -⟩ | ⟨r1, e1, h1⟩⟩ := split_cons_inv _ _ _ _ h0
    · simp at h
    obtain ⟨a2, ⟨h, -⟩ | ⟨r2, e2, h2⟩⟩ := split_cons_inv _ _ _ _ h1
    · simp at h
    obtain ⟨a3, ⟨-, e3⟩ | ⟨r3, e3, h3⟩⟩ := split_cons_inv _ _ _ _ h2
    · exact ⟨by rw [e0, e1, e2, e3], a0, a1, a2, a3⟩
    · exact absurd h3 (split_ne_nil _ _)
  · rintro ⟨rfl, a0, a1, a2, a3⟩
    rw [split_append _ _ _ a0, split_append _ _ _ a1, split_append _ _ _ a2, split_no _ _ a3]

theorem dropWhile_all {α : Type*} (p : α → Bool) (l r : List α) (h : ∀ c ∈ l, p c = true) :
    (l ++ r).dropWhile p = r.dropWhile p := by
  induction l with
  | nil => rfl
  | cons x xs ih =>
    rw [List.cons_append, List.dropWhile_cons_of_pos (h x (by simp))]
    exact ih fun c hc => h c (by simp [hc])

theorem dropWhile_head {α : Type*} (p : α → Bool) (l : List α) (h : ∀ c, l.head? = some c → p c = false) :
    l.dropWhile p = l := by
  cases l with
  | nil => rfl
  | cons x xs => exact List.dropWhile_cons_of_neg (by simp [h x rfl])

theorem head_dropWhile {α : Type*} (p : α → Bool) (l : List α) (c : α) (h : (l.dropWhile p).head? = some c) :
    p c = false := by
  induction l with
  | nil => simp at h
  | cons x xs ih =>
    by_cases hx : p x = true
    · rw [List.dropWhile_cons_of_pos hx] at h; exact ih h
    · rw [List.dropWhile_cons_of_neg hx] at h
      simp only [List.head?_cons, Option.some.injEq] at h
      subst h
      simpa using hx

theorem strip_iff (w n : Str) : strip w = n ↔ Trimmed w n := by
  constructor
  · rintro rfl
    refine ⟨w.takeWhile Char.isWhitespace,
      ((w.dropWhile Char.isWhitespace).reverse.takeWhile Char.isWhitespace).reverse, ?_, ?_, ?_, ?_, ?_⟩
    · unfold strip
      rw [List.append_assoc, ← List.reverse_append, List.takeWhile_append_dropWhile, List.reverse_reverse,
        List.takeWhile_append_dropWhile]
    · intro c hc; exact List.mem_takeWhile_imp hc
    · intro c hc; exact List.mem_takeWhile_imp (List.mem_reverse.1 hc)
    · intro c hc
      -- the first character of what is left is the first one after the leading whitespace
      have hne : strip w ≠ [] := by intro e; rw [e] at hc; simp at hc
      have e : w.dropWhile Char.isWhitespace = strip w ++
          ((w.dropWhile Char.isWhitespace).reverse.takeWhile Char.isWhitespace).reverse := by
        unfold strip
        rw [← List.reverse_append, List.takeWhile_append_dropWhile, List.reverse_reverse]
      apply head_dropWhile Char.isWhitespace w c
      rw [e, List.head?_append, hc]
      rfl
    · intro c hc
      unfold strip at hc
      rw [List.getLast?_reverse] at hc
      exact head_dropWhile _ _ c hc
  · rintro ⟨p, s, rfl, hp, hs, h1, h2⟩
    unfold strip
    rw [List.append_assoc, dropWhile_all _ _ _ hp]
    cases n with
    | nil =>
      have e : ([] ++ s : Str).dropWhile Char.isWhitespace = [] := by
        rw [List.nil_append]
        exact List.dropWhile_eq_nil_iff.2 hs
      rw [e]; rfl
    | cons x xs =>
      rw [dropWhile_head _ (x :: xs ++ s) (by intro c hc; exact h1 c (by simpa using hc)), List.reverse_append,
        dropWhile_all _ _ _ (fun c hc => hs c (List.mem_reverse.1 hc)), dropWhile_head, List.reverse_reverse]
      intro c hc
      exact h2 c (by rwa [List.head?_reverse] at hc)

/-- **C75, the format.**  A line is taken as an entry, with these fields, if and only if it is one. -/
theorem C75_format (l name value vtype : Str) :
    parseLine l = some (name, value, vtype) ↔ IsEntry l name value vtype := by
  unfold parseLine IsEntry
  by_cases hc : l.head? = some '#'
  · simp [hc]
  · rw [if_neg hc]
    constructor
    · intro h
      refine ⟨hc, ?_⟩
      split at h
      · rename_i w0 w1 w2 w3 hs
        simp only [Option.some.injEq, Prod.mk.injEq] at h
        obtain ⟨e0, e1, e2⟩ := h
        obtain ⟨e, a0, a1, a2, a3⟩ := (split_four _ _ _ _ _).1 hs
        exact ⟨w0, w1, w2, w3, e, a0, a1, a2, a3, (strip_iff _ _).1 e0, (strip_iff _ _).1 e1, (strip_iff _ _).1 e2⟩
      · simp at h
    · rintro ⟨-, w0, w1, w2, w3, e, a0, a1, a2, a3, t0, t1, t2⟩
      rw [(split_four l w0 w1 w2 w3).2 ⟨e, a0, a1, a2, a3⟩]
      simp only [(strip_iff _ _).2 t0, (strip_iff _ _).2 t1, (strip_iff _ _).2 t2]

/-! ## The name of the file variable -/

theorem rfindFrom_append (c : Char) (l r : Str) (i : ℕ) (acc : ℤ) :
    rfindFrom c (l ++ r) i acc = rfindFrom c r (i + l.length) (rfindFrom c l i acc) := by
  induction l generalizing i acc with
  | nil => rfl
  | cons x xs ih =>
    simp only [List.cons_append, rfindFrom, List.length_cons]
    rw [ih, show i + 1 + xs.length = i + (xs.length + 1) by omega]

theorem rfindFrom_no (c : Char) (l : Str) (i : ℕ) (acc : ℤ) (h : c ∉ l) : rfindFrom c l i acc = acc := by
  induction l generalizing i acc with
  | nil => rfl
  | cons x xs ih =>
    simp only [List.mem_cons, not_or] at h
    simp only [rfindFrom]
    rw [if_neg (fun e => h.1 e.symm), ih _ _ h.2]

theorem rfind_last (c : Char) (l r : Str) (h : c ∉ r) : rfind c (l ++ c :: r) = l.length := by
  unfold rfind
  rw [rfindFrom_append]
  simp only [rfindFrom, if_true]
  rw [rfindFrom_no _ _ _ _ h]
  simp

theorem rfind_no (c : Char) (l : Str) (h : c ∉ l) : rfind c l = -1 := rfindFrom_no _ _ _ _ h

theorem last_occurrence (c : Char) (s : Str) (h : c ∈ s) : ∃ l r, s = l ++ c :: r ∧ c ∉ r := by
  obtain ⟨as, bs, e, hn⟩ := List.eq_append_cons_of_mem (List.mem_reverse.2 h)
  refine ⟨bs.reverse, as.reverse, ?_, by simpa using hn⟩
  have := congrArg List.reverse e
  rw [List.reverse_reverse] at this
  rw [this]
  simp

/-- The file of a plain variable `x` is named by `x_file`; that of the element `x[i]` of a layered variable by
`x_file[i]`. -/
theorem C75_file_variable (name base idx : Str) :
    ('[' ∉ name → baseAndFile name = (name, name ++ "_file".toList)) ∧
    (base ≠ [] → '[' ∉ idx → ']' ∉ idx →
      baseAndFile (base ++ '[' :: (idx ++ [']'])) = (base, base ++ "_file".toList ++ ('[' :: (idx ++ [']'])))) := by
  constructor
  · intro h
    simp only [baseAndFile, rfind_no _ _ h]
    rw [if_neg (by intro h; omega)]
  · intro hb h1 h2
    have e1 : rfind '[' (base ++ '[' :: (idx ++ [']'])) = base.length := rfind_last _ _ _ (by simp [h1])
    have e2 : rfind ']' (base ++ '[' :: (idx ++ [']'])) = (base.length + 1 + idx.length : ℕ) := by
      have := rfind_last ']' (base ++ '[' :: idx) [] (by simp)
      have e : base ++ '[' :: idx ++ [']'] = base ++ '[' :: (idx ++ [']']) := by simp
      rw [e] at this
      rw [this]
      congr 1
      simp; omega
    have hlen : 0 < base.length := List.length_pos_iff.2 hb
    simp only [baseAndFile, e1, e2]
    rw [if_pos ⟨by omega, by omega⟩]
    simp only [Int.toNat_natCast, List.take_left, Prod.mk.injEq, true_and, List.append_cancel_left_eq]
    rw [List.take_of_length_le (by simp; omega), List.drop_left]

/-- Names with a bracket that is not a subscript (at the start, or closed before it is opened) count as plain
variables. -/
theorem C75_not_a_subscript (idx l r : Str) :
    ('[' ∉ idx → baseAndFile ('[' :: idx) = ('[' :: idx, '[' :: idx ++ "_file".toList)) ∧
    ('[' ∉ r → ']' ∉ r →
      baseAndFile (l ++ '[' :: r) = (l ++ '[' :: r, (l ++ '[' :: r) ++ "_file".toList)) := by
  constructor
  · intro h
    have e1 : rfind '[' ('[' :: idx) = 0 := rfind_last '[' [] idx h
    simp only [baseAndFile, e1]
    rw [if_neg (by intro h; omega)]
  · intro h1 h2
    have e1 : rfind '[' (l ++ '[' :: r) = l.length := rfind_last _ _ _ h1
    have e2 : rfind ']' (l ++ '[' :: r) ≤ l.length := by
      by_cases h : ']' ∈ l
      · obtain ⟨a, b, rfl, hb⟩ := last_occurrence ']' l h
        have e : a ++ ']' :: b ++ '[' :: r = a ++ ']' :: (b ++ '[' :: r) := by simp
        rw [e, rfind_last ']' a (b ++ '[' :: r) (by simp [hb, h2])]
        simp; omega
      · rw [rfind_no _ _ (by simp [h, h2])]; omega
    simp only [baseAndFile, e1]
    rw [if_neg (by intro h; omega)]

theorem file_ne_name (name : Str) : (baseAndFile name).2 ≠ name := by
  by_cases h : '[' ∈ name
  · obtain ⟨l, r, rfl, hr⟩ := last_occurrence '[' name h
    simp only [baseAndFile, rfind_last _ _ _ hr]
    split_ifs with hp
    · simp only [Int.toNat_natCast, List.take_left]
      intro e
      rw [List.append_assoc, List.append_cancel_left_eq] at e
      have := congrArg List.head? e
      simp at this
    · intro e
      have := congrArg List.length e
      simp at this
  · rw [(C75_file_variable name [] []).1 h]
    intro e
    have := congrArg List.length e
    simp at this

/-! ## Steps -/

variable {F : Type}

theorem assign_ok {env : Env F} {a a' : Attrs F} {n : Str} {v : Value F} (h : assign env a n v = .ok a') :
    a' n = some v ∧ ∀ k, k ≠ n → a' k = a k := by
  unfold assign at h
  split_ifs at h
  injection h with h
  subst h
  exact ⟨by simp, fun k hk => by simp [hk]⟩

theorem typeStep_frame {env : Env F} {st : St F} {n b f : Str} {a' : Attrs F} {m : Mode}
    (h : typeStep env st n b f = .ok (a', m)) (k : Str) (h1 : k ≠ n) (h2 : k ≠ f) : a' k = st.attrs k := by
  unfold typeStep at h
  split_ifs at h with hp
  · split at h
    · split_ifs at h
      · split at h
        · rename_i ha; injection h with h; injection h with h3 h4; subst h3; exact (assign_ok ha).2 k h2
        · simp at h
      · split at h
        · rename_i ha; injection h with h; injection h with h3 h4; subst h3; exact (assign_ok ha).2 k h1
        · simp at h
    · simp at h
  · injection h with h; injection h with h3 h4; subst h3; rfl

theorem assignTyped_frame {env : Env F} {a a' : Attrs F} {m : Mode} {n f v t : Str} {w : Value F}
    (h : assignTyped env a m n f v t = .ok (a', w)) (k : Str) (h1 : k ≠ n) (h2 : k ≠ f) : a' k = a k := by
  unfold assignTyped at h
  split_ifs at h
  · split at h
    · simp at h
    · split at h
      · rename_i ha; injection h with h; injection h with h3 h4; subst h3; exact (assign_ok ha).2 k h1
      · simp at h
  · split at h
    · simp at h
    · split at h
      · rename_i ha; injection h with h; injection h with h3 h4; subst h3; exact (assign_ok ha).2 k h1
      · simp at h
  · split at h
    · simp at h
    · split at h
      · rename_i ha; injection h with h; injection h with h3 h4; subst h3; exact (assign_ok ha).2 k h1
      · simp at h
  · split at h
    · simp at h
    · split at h
      · rename_i ha; injection h with h; injection h with h3 h4; subst h3; exact (assign_ok ha).2 k h2
      · simp at h
  · split at h
    · simp at h
    · split at h
      · rename_i ha; injection h with h; injection h with h3 h4; subst h3; exact (assign_ok ha).2 k h1
      · simp at h
  · injection h with h; injection h with h3 h4; subst h3; rfl

theorem layerStep_frame {env : Env F} {a a' : Attrs F} {n v : Str} (h : layerStep env a n v = .ok a') (k : Str)
    (hl : ∀ m b b', env.layerVars m b = some b' → b' k = b k) (h1 : k ≠ n) : a' k = a k := by
  unfold layerStep at h
  split_ifs at h
  · split at h
    · simp at h
    · split at h
      · simp at h
      · rename_i hv
        injection h with h
        subst h
        rw [hl _ _ _ hv]
        simp [h1]
  · injection h with h; rw [h]

theorem entry_ok {env : Env F} {st st' : St F} {n v t : Str} (h : entry env st n v t = .ok st') :
    ∃ a a' m, layerStep env st.attrs n v = .ok a ∧
      typeStep env { st with attrs := a } n (baseAndFile n).1 (baseAndFile n).2 = .ok (a', m) ∧
      assignTyped env a' m n (baseAndFile n).2 v t = .ok (st'.attrs, st'.lastValue) ∧ st'.lastName = n := by
  unfold entry at h
  split at h
  · simp at h
  · rename_i a ha
    simp only at h
    split at h
    · simp at h
    · rename_i a' m ht
      split at h
      · simp at h
      · rename_i a'' w hw
        injection h with h
        subst h
        exact ⟨a, a', m, ha, ht, hw, rfl⟩

theorem entry_frame {env : Env F} {st st' : St F} {n v t : Str} (h : entry env st n v t = .ok st') (k : Str)
    (hl : ∀ m b b', env.layerVars m b = some b' → b' k = b k) (h1 : k ≠ n) (h2 : k ≠ (baseAndFile n).2) :
    st'.attrs k = st.attrs k := by
  obtain ⟨a, a', m, e1, e2, e3, -⟩ := entry_ok h
  rw [assignTyped_frame e3 k h1 h2, typeStep_frame e2 k h1 h2]
  exact layerStep_frame e1 k hl h1

/-- The attribute is not set by any entry of the lines: neither as the variable nor as its file. -/
def NotSet (lines : List Str) (k : Str) : Prop :=
  ∀ l ∈ lines, ∀ n v t, IsEntry l n v t → k ≠ n ∧ k ≠ (baseAndFile n).2

theorem readLines_frame {env : Env F} (k : Str) (hl : ∀ m b b', env.layerVars m b = some b' → b' k = b k)
    (file : List Str) (st st' : St F) (h : readLines env st file = .ok st') (hn : NotSet file k) :
    st'.attrs k = st.attrs k := by
  induction file generalizing st with
  | nil => simp only [readLines] at h; injection h with h; rw [h]
  | cons l ls ih =>
    simp only [readLines] at h
    split at h
    · simp at h
    · rename_i st1 h1
      rw [ih st1 h (fun l' hl' => hn l' (by simp [hl']))]
      unfold line at h1
      split at h1
      · injection h1 with h1; rw [h1]
      · rename_i n v t hp
        have := hn l (by simp) n v t ((C75_format _ _ _ _).1 hp)
        exact entry_frame h1 k hl this.1 this.2

theorem readLines_append {env : Env F} (l1 l2 : List Str) (st : St F) :
    readLines env st (l1 ++ l2) = match readLines env st l1 with
      | .error e => .error e
      | .ok st' => readLines env st' l2 := by
  induction l1 generalizing st with
  | nil => rfl
  | cons l ls ih =>
    simp only [List.cons_append, readLines]
    cases line env st l with
    | error e => rfl
    | ok st1 => exact ih st1

theorem readConfig_ok {env : Env F} {a a' : Attrs F} {file : List Str} (h : readConfig env a file = .ok a') :
    ∃ st, readLines env ⟨a, [], .str []⟩ file = .ok st ∧ st.attrs = a' := by
  unfold readConfig at h
  split at h
  · rename_i st hs; injection h with h; exact ⟨st, hs, h⟩
  · simp at h

theorem readLines_split {env : Env F} {st st' : St F} {pre post : List Str} {l : Str}
    (h : readLines env st (pre ++ l :: post) = .ok st') :
    ∃ s1 s2, readLines env st pre = .ok s1 ∧ line env s1 l = .ok s2 ∧ readLines env s2 post = .ok st' := by
  rw [readLines_append] at h
  split at h
  · simp at h
  · rename_i s1 h1
    simp only [readLines] at h
    split at h
    · simp at h
    · rename_i s2 h2
      exact ⟨s1, s2, h1, h2, h⟩

theorem line_entry {env : Env F} {st : St F} {l n v t : Str} (h : IsEntry l n v t) :
    line env st l = entry env st n v t := by
  unfold line
  rw [(C75_format _ _ _ _).2 h]

/-! ## The property -/

/-- **C75, comments.**  A line that is not an entry has no effect, wherever it stands: a comment, a blank line, a rule
of dashes. -/
theorem C75_ignored (env : Env F) (a : Attrs F) (pre post : List Str) (l : Str)
    (h : ∀ n v t, ¬ IsEntry l n v t) :
    readConfig env a (pre ++ l :: post) = readConfig env a (pre ++ post) := by
  have hp : parseLine l = none := by
    cases hp : parseLine l with
    | none => rfl
    | some x => exact absurd ((C75_format _ _ _ _).1 hp) (h x.1 x.2.1 x.2.2)
  have hl : ∀ st : St F, line env st l = .ok st := by intro st; unfold line; rw [hp]
  unfold readConfig
  rw [readLines_append, readLines_append]
  cases readLines env ⟨a, [], .str []⟩ pre with
  | error e => rfl
  | ok st => simp only [readLines, hl]

/-- **C75, nothing else.**  A variable that no entry names keeps its value (if the layer variables, when the file has
them, do not include it). -/
theorem C75_frame (env : Env F) (a a' : Attrs F) (file : List Str) (k : Str)
    (hl : ∀ m b b', env.layerVars m b = some b' → b' k = b k)
    (h : readConfig env a file = .ok a') (hn : NotSet file k) : a' k = a k := by
  obtain ⟨st, h1, rfl⟩ := readConfig_ok h
  exact readLines_frame k hl file _ _ h1 hn

/-- **C75, numbers.**  After a successful reading a variable declared `double` or `float` (`int` or `long`) holds the
number its last entry gives; an entry that is no number stops the reading. -/
theorem C75_number (env : Env F) (a a' : Attrs F) (pre post : List Str) (l n v t : Str)
    (hl : ∀ m b b', env.layerVars m b = some b' → b' n = b n)
    (hE : IsEntry l n v t) (h : readConfig env a (pre ++ l :: post) = .ok a') (hn : NotSet post n) :
    (t = "double".toList ∨ t = "float".toList → ∃ x, env.float64 v = some x ∧ a' n = some (.float x)) ∧
    (t = "int".toList ∨ t = "long".toList → ∃ x, env.int32 v = some x ∧ a' n = some (.int x)) := by
  obtain ⟨st, h1, rfl⟩ := readConfig_ok h
  obtain ⟨s1, s2, -, e2, e3⟩ := readLines_split h1
  rw [readLines_frame n hl post _ _ e3 hn]
  rw [line_entry hE] at e2
  obtain ⟨b, b', m, -, -, e, -⟩ := entry_ok e2
  unfold assignTyped at e
  constructor
  · intro ht
    rw [if_pos ht] at e
    split at e
    · simp at e
    · rename_i x hx
      split at e
      · rename_i ha; injection e with e; injection e with e4 e5
        exact ⟨x, hx, by rw [← e4]; exact (assign_ok ha).1⟩
      · simp at e
  · intro ht
    rw [if_neg (by rcases ht with rfl | rfl <;> decide), if_pos ht.symm] at e
    split at e
    · simp at e
    · rename_i x hx
      split at e
      · rename_i ha; injection e with e; injection e with e4 e5
        exact ⟨x, hx, by rw [← e4]; exact (assign_ok ha).1⟩
      · simp at e

/-- A number that cannot be read is not passed over. -/
theorem C75_bad_number (env : Env F) (a : Attrs F) (pre post : List Str) (l n v t : Str) (hE : IsEntry l n v t)
    (hb : ((t = "double".toList ∨ t = "float".toList) ∧ env.float64 v = none) ∨
      ((t = "int".toList ∨ t = "long".toList) ∧ env.int32 v = none)) :
    ∃ e, readConfig env a (pre ++ l :: post) = .error e := by
  cases hr : readConfig env a (pre ++ l :: post) with
  | error e => exact ⟨e, rfl⟩
  | ok a' =>
    exfalso
    obtain ⟨st, h1, rfl⟩ := readConfig_ok hr
    obtain ⟨s1, s2, -, e2, e3⟩ := readLines_split h1
    rw [line_entry hE] at e2
    obtain ⟨b, b', m, -, -, e, -⟩ := entry_ok e2
    unfold assignTyped at e
    rcases hb with ⟨ht, hb⟩ | ⟨ht, hb⟩
    · rw [if_pos ht, hb] at e; simp at e
    · rw [if_neg (by rcases ht with rfl | rfl <;> decide), if_pos ht.symm, hb] at e; simp at e

/-- The words that stand for true and false, in any capitalisation. -/
def IsTrueWord (v : Str) : Prop := lower v ∈ ["yes".toList, "true".toList, "on".toList, "1".toList]
def IsFalseWord (v : Str) : Prop := lower v ∈ ["no".toList, "false".toList, "off".toList, "0".toList]

theorem string_type : ¬ ("string".toList = "double".toList ∨ "string".toList = "float".toList) ∧
    ¬ ("string".toList = "long".toList ∨ "string".toList = "int".toList) := by decide

/-- **C75, switches.**  A string variable whose last entry is one of the words for true or false holds the boolean. -/
theorem C75_boolean (env : Env F) (a a' : Attrs F) (pre post : List Str) (l n v : Str)
    (hl : ∀ m b b', env.layerVars m b = some b' → b' n = b n)
    (hE : IsEntry l n v "string".toList) (h : readConfig env a (pre ++ l :: post) = .ok a') (hn : NotSet post n) :
    (IsTrueWord v → a' n = some (.bool true)) ∧ (IsFalseWord v → a' n = some (.bool false)) := by
  obtain ⟨st, h1, rfl⟩ := readConfig_ok h
  obtain ⟨s1, s2, -, e2, e3⟩ := readLines_split h1
  rw [readLines_frame n hl post _ _ e3 hn]
  rw [line_entry hE] at e2
  obtain ⟨b, b', m, -, -, e, -⟩ := entry_ok e2
  unfold assignTyped at e
  rw [if_neg string_type.1, if_neg string_type.2, if_pos rfl] at e
  split at e
  · simp at e
  · constructor
    · intro hv
      have hT : lower v ∈ trueList := hv
      rw [if_pos (List.mem_append_left _ hT), decide_eq_true hT] at e
      split at e
      · rename_i ha; injection e with e; injection e with e4 e5
        rw [← e4]; exact (assign_ok ha).1
      · simp at e
    · intro hv
      have hF : lower v ∈ falseList := hv
      have hT : lower v ∉ trueList := by
        intro hT
        have : ∀ x ∈ falseList, x ∉ trueList := by decide
        exact this _ hF hT
      rw [if_pos (List.mem_append_right _ hF), decide_eq_false hT] at e
      split at e
      · rename_i ha; injection e with e; injection e with e4 e5
        rw [← e4]; exact (assign_ok ha).1
      · simp at e

/-- The name of a file with its prefix: `[case_prefix]` and `[site_prefix]` at the beginning stand for the prefixes. -/
def FileName (case site v f : Str) : Prop :=
  (∃ r, v = "[case_prefix]".toList ++ r ∧ f = case ++ r) ∨
  (∃ r, v = "[site_prefix]".toList ++ r ∧ f = site ++ r) ∨
  (¬ "[case_prefix]".toList <+: v ∧ ¬ "[site_prefix]".toList <+: v ∧ f = v)

theorem expand_fileName {a : Attrs F} {case site v f : Str} (hc : a "case_prefix".toList = some (.str case))
    (hs : a "site_prefix".toList = some (.str site)) (h : FileName case site v f) : expand a v = .ok f := by
  unfold expand
  have l1 : "[case_prefix]".toList.length = 13 := by decide
  have l2 : "[site_prefix]".toList.length = 13 := by decide
  have hne : "[site_prefix]".toList ≠ "[case_prefix]".toList := by decide
  rcases h with ⟨r, rfl, rfl⟩ | ⟨r, rfl, rfl⟩ | ⟨h1, h2, rfl⟩
  · rw [List.take_left' l1, if_pos rfl, hc, List.drop_left' l1]
  · rw [List.take_left' l2, if_neg hne, if_pos rfl, hs, List.drop_left' l2]
  · have p1 : f.take 13 ≠ "[case_prefix]".toList := fun e => h1 (e ▸ List.take_prefix 13 f)
    have p2 : f.take 13 ≠ "[site_prefix]".toList := fun e => h2 (e ▸ List.take_prefix 13 f)
    rw [if_neg p1, if_neg p2]

/-- No entry stands between two lines. -/
def NoEntry (lines : List Str) : Prop := ∀ l ∈ lines, ∀ n v t, ¬ IsEntry l n v t

theorem readLines_noEntry {env : Env F} (lines : List Str) (st : St F) (h : NoEntry lines) :
    readLines env st lines = .ok st := by
  induction lines with
  | nil => rfl
  | cons l ls ih =>
    have hp : parseLine l = none := by
      cases hp : parseLine l with
      | none => rfl
      | some x => exact absurd ((C75_format _ _ _ _).1 hp) (h l (by simp) x.1 x.2.1 x.2.2)
    simp only [readLines, line, hp]
    exact ih fun l' hl' => h l' (by simp [hl'])

theorem string_entry_last {env : Env F} {st st' : St F} {n v : Str}
    (h : entry env st n v "string".toList = .ok st') : st'.lastName = n ∧ st'.lastValue = .str v := by
  obtain ⟨b, b', m, -, -, e, hn⟩ := entry_ok h
  refine ⟨hn, ?_⟩
  unfold assignTyped at e
  rw [if_neg string_type.1, if_neg string_type.2, if_pos rfl] at e
  split at e
  · simp at e
  · split at e
    all_goals
      split at e
      · injection e with e; injection e with e4 e5; exact e5.symm
      · simp at e

/-- What happens at a variable whose `_type` entry is the last one before it. -/
theorem pair_steps {env : Env F} {a a' : Attrs F} {pre mid post : List Str} {lt l nT T n v t : Str}
    (hT : IsEntry lt nT T "string".toList) (hmid : NoEntry mid) (hE : IsEntry l n v t)
    (hpre : (baseAndFile n).1 ++ "_type".toList <+: nT) (hlay : n ≠ "n_layers".toList)
    (h : readConfig env a (pre ++ lt :: (mid ++ l :: post)) = .ok a') :
    ∃ s1 s2 : St F, ∃ (b : Attrs F) (m : Mode) (st : St F),
      readLines env ⟨a, [], .str []⟩ (pre ++ [lt]) = .ok s1 ∧
      assign env s1.attrs (if lower T = "scalar".toList then (baseAndFile n).2 else n)
        (if lower T = "scalar".toList then .str [] else .float env.zero) = .ok b ∧
      (m = if lower T = "scalar".toList then .scalar else .filename) ∧
      assignTyped env b m n (baseAndFile n).2 v t = .ok (s2.attrs, s2.lastValue) ∧
      readLines env s2 post = .ok st ∧ st.attrs = a' := by
  obtain ⟨st, h1, h1'⟩ := readConfig_ok h
  have e : pre ++ lt :: (mid ++ l :: post) = (pre ++ [lt]) ++ (mid ++ l :: post) := by simp
  rw [e, readLines_append] at h1
  split at h1
  · simp at h1
  · rename_i s1 hs1
    have hl1 : s1.lastName = nT ∧ s1.lastValue = .str T := by
      obtain ⟨r1, r2, -, q2, q3⟩ := readLines_split (post := []) hs1
      simp only [readLines] at q3
      injection q3 with q3
      subst q3
      rw [line_entry hT] at q2
      exact string_entry_last q2
    rw [readLines_append, readLines_noEntry mid _ hmid] at h1
    simp only [readLines] at h1
    split at h1
    · simp at h1
    · rename_i s2 hs2
      rw [line_entry hE] at hs2
      obtain ⟨b0, b, m, e1, e2, e3, -⟩ := entry_ok hs2
      unfold layerStep at e1
      rw [if_neg hlay] at e1
      injection e1 with e1
      subst e1
      have hp : ((baseAndFile n).1 ++ "_type".toList).isPrefixOf s1.lastName = true := by
        rw [hl1.1]; exact List.isPrefixOf_iff_prefix.2 hpre
      unfold typeStep at e2
      simp only [hp, if_true, hl1.2] at e2
      refine ⟨s1, s2, b, m, st, hs1, ?_, ?_, e3, h1, h1'⟩
      · split_ifs at e2 ⊢ with hs
        all_goals
          split at e2
          · rename_i ha; injection e2 with e2; injection e2 with e4 e5; subst e4; exact ha
          · simp at e2
      · split_ifs at e2 ⊢ with hs
        all_goals
          split at e2
          · injection e2 with e2; injection e2 with e4 e5; exact e5.symm
          · simp at e2

/-- **C75, sources: scalars.**  A variable whose `_type` entry precedes it and says `Scalar` holds the number, and has
an empty file name. -/
theorem C75_scalar (env : Env F) (a a' : Attrs F) (pre mid post : List Str) (lt l nT T n v t : Str)
    (hl : ∀ k ∈ [n, (baseAndFile n).2], ∀ m b b', env.layerVars m b = some b' → b' k = b k)
    (hT : IsEntry lt nT T "string".toList) (hmid : NoEntry mid) (hE : IsEntry l n v t)
    (hpre : (baseAndFile n).1 ++ "_type".toList <+: nT) (hlay : n ≠ "n_layers".toList)
    (hS : lower T = "scalar".toList) (ht : t = "double".toList ∨ t = "float".toList)
    (h : readConfig env a (pre ++ lt :: (mid ++ l :: post)) = .ok a')
    (hn : NotSet post n) (hf : NotSet post (baseAndFile n).2) :
    (∃ x, env.float64 v = some x ∧ a' n = some (.float x)) ∧ a' (baseAndFile n).2 = some (.str []) := by
  obtain ⟨s1, s2, b, m, st, -, e1, -, e3, e4, rfl⟩ := pair_steps hT hmid hE hpre hlay h
  rw [if_pos hS, if_pos hS] at e1
  rw [readLines_frame n (hl n (by simp)) post _ _ e4 hn,
    readLines_frame (baseAndFile n).2 (hl _ (by simp)) post _ _ e4 hf]
  unfold assignTyped at e3
  rw [if_pos ht] at e3
  split at e3
  · simp at e3
  · rename_i x hx
    split at e3
    · rename_i ha
      injection e3 with e3; injection e3 with e5 e6
      rw [← e5]
      refine ⟨⟨x, hx, (assign_ok ha).1⟩, ?_⟩
      rw [(assign_ok ha).2 _ (file_ne_name n)]
      exact (assign_ok e1).1
    · simp at e3

/-- **C75, sources: files.**  A variable whose `_type` entry precedes it and does not say `Scalar` holds zero for the
time being, and its file variable the file name, with the prefix expanded. -/
theorem C75_file (env : Env F) (a a' : Attrs F) (pre mid post : List Str) (lt l nT T n v f case site : Str)
    (hl : ∀ k ∈ [n, (baseAndFile n).2, "case_prefix".toList, "site_prefix".toList],
      ∀ m b b', env.layerVars m b = some b' → b' k = b k)
    (hT : IsEntry lt nT T "string".toList) (hmid : NoEntry mid) (hE : IsEntry l n v "string".toList)
    (hpre : (baseAndFile n).1 ++ "_type".toList <+: nT) (hlay : n ≠ "n_layers".toList)
    (hS : lower T ≠ "scalar".toList) (hw : ¬ IsTrueWord v ∧ ¬ IsFalseWord v)
    (h : readConfig env a (pre ++ lt :: (mid ++ l :: post)) = .ok a')
    (hc : a "case_prefix".toList = some (.str case)) (hs : a "site_prefix".toList = some (.str site))
    (hcn : NotSet (pre ++ lt :: (mid ++ l :: post)) "case_prefix".toList)
    (hsn : NotSet (pre ++ lt :: (mid ++ l :: post)) "site_prefix".toList)
    (hn : NotSet post n) (hf : NotSet post (baseAndFile n).2) (hF : FileName case site v f) :
    a' n = some (.float env.zero) ∧ a' (baseAndFile n).2 = some (.str f) := by
  obtain ⟨s1, s2, b, m, st, e0, e1, em, e3, e4, rfl⟩ := pair_steps hT hmid hE hpre hlay h
  rw [if_neg hS, if_neg hS] at e1
  rw [if_neg hS] at em
  rw [readLines_frame n (hl n (by simp)) post _ _ e4 hn,
    readLines_frame (baseAndFile n).2 (hl _ (by simp)) post _ _ e4 hf]
  have key : ∀ k ∈ [n, (baseAndFile n).2, "case_prefix".toList, "site_prefix".toList], NotSet (pre ++ lt :: (mid ++ l :: post)) k → b k = a k := by
    intro k hk hk2
    have hkn := hk2 l (by simp) n v _ hE
    rw [(assign_ok e1).2 k hkn.1]
    apply readLines_frame k (hl k hk) _ _ _ e0
    intro l' hl'' 
    refine hk2 l' ?_
    simp only [List.mem_append, List.mem_cons, List.not_mem_nil, or_false] at hl'' ⊢
    tauto
  have hexp : expand b v = .ok f := by
    apply expand_fileName _ _ hF
    · rw [key _ (by simp) hcn, hc]
    · rw [key _ (by simp) hsn, hs]
  unfold assignTyped at e3
  rw [if_neg string_type.1, if_neg string_type.2, if_pos rfl, hexp] at e3
  have hb : lower v ∉ trueList ++ falseList := by
    rw [List.mem_append]
    exact fun hm => hm.elim hw.1 hw.2
  simp only at e3
  rw [if_neg hb, if_pos em] at e3
  split at e3
  · rename_i ha
    injection e3 with e3; injection e3 with e5 e6
    rw [← e5]
    refine ⟨?_, (assign_ok ha).1⟩
    rw [(assign_ok ha).2 _ (file_ne_name n).symm]
    exact (assign_ok e1).1
  · simp at e3

theorem last_entry {env : Env F} (pre : List Str) : ∀ (st s1 : St F), readLines env st pre = .ok s1 →
    (NoEntry pre ∧ s1 = st) ∨ ∃ pre1 ly mid nY vY tY, pre = pre1 ++ ly :: mid ∧ NoEntry mid ∧ IsEntry ly nY vY tY ∧
      s1.lastName = nY := by
  induction pre with
  | nil =>
    intro st s1 h
    simp only [readLines] at h
    injection h with h
    exact Or.inl ⟨by intro l hl; simp at hl, h.symm⟩
  | cons l ls ih =>
    intro st s1 h
    simp only [readLines] at h
    split at h
    · simp at h
    · rename_i s0 h0
      rcases ih s0 s1 h with ⟨hno, rfl⟩ | ⟨pre1, ly, mid, nY, vY, tY, e, h1, h2, h3⟩
      · cases hp : parseLine l with
        | none =>
          left
          unfold line at h0
          rw [hp] at h0
          injection h0 with h0
          refine ⟨?_, h0.symm⟩
          intro l' hl' n v t hE
          rcases List.mem_cons.1 hl' with rfl | hl'
          · rw [(C75_format _ _ _ _).2 hE] at hp; simp at hp
          · exact hno l' hl' n v t hE
        | some x =>
          right
          obtain ⟨nY, vY, tY⟩ := x
          have hE := (C75_format _ _ _ _).1 hp
          rw [line_entry hE] at h0
          obtain ⟨_, _, _, _, _, _, hq⟩ := entry_ok h0
          exact ⟨[], l, ls, nY, vY, tY, rfl, hno, hE, hq⟩
      · exact Or.inr ⟨l :: pre1, ly, mid, nY, vY, tY, by rw [e]; rfl, h1, h2, h3⟩

/-- The last entry before a variable, if there is one, is not its type entry. -/
def NoTypeBefore (pre : List Str) (n : Str) : Prop :=
  ∀ pre1 ly mid nY vY tY, pre = pre1 ++ ly :: mid → NoEntry mid → IsEntry ly nY vY tY →
    ¬ (baseAndFile n).1 ++ "_type".toList <+: nY

/-- **C75, strings.**  A string variable without a type entry before it holds the text of its last entry, with the
prefix expanded, and its file variable is not set. -/
theorem C75_string (env : Env F) (a a' : Attrs F) (pre post : List Str) (l n v case site f : Str)
    (hl : ∀ k ∈ [n, (baseAndFile n).2, "case_prefix".toList, "site_prefix".toList],
      ∀ m b b', env.layerVars m b = some b' → b' k = b k)
    (hE : IsEntry l n v "string".toList) (hpre : NoTypeBefore pre n) (hlay : n ≠ "n_layers".toList)
    (hw : ¬ IsTrueWord v ∧ ¬ IsFalseWord v)
    (h : readConfig env a (pre ++ l :: post) = .ok a')
    (hc : a "case_prefix".toList = some (.str case)) (hs : a "site_prefix".toList = some (.str site))
    (hcn : NotSet pre "case_prefix".toList) (hsn : NotSet pre "site_prefix".toList)
    (hn : NotSet post n) (hF : FileName case site v f) :
    a' n = some (.str f) ∧ (NotSet (pre ++ post) (baseAndFile n).2 → a' (baseAndFile n).2 = a (baseAndFile n).2) := by
  obtain ⟨st, h1, rfl⟩ := readConfig_ok h
  rw [readLines_append] at h1
  split at h1
  · simp at h1
  · rename_i s1 hs1
    have hp : ¬ ((baseAndFile n).1 ++ "_type".toList).isPrefixOf s1.lastName = true := by
      intro hh
      have hh := List.isPrefixOf_iff_prefix.1 hh
      rcases last_entry pre _ _ hs1 with ⟨-, e⟩ | ⟨pre1, ly, mid, nY, vY, tY, e, g1, g2, g3⟩
      · rw [e] at hh
        have := hh.length_le
        simp at this
      · exact hpre pre1 ly mid nY vY tY e g1 g2 (g3 ▸ hh)
    simp only [readLines] at h1
    split at h1
    · simp at h1
    · rename_i s2 hs2
      rw [line_entry hE] at hs2
      obtain ⟨b0, b, m, e1, e2, e3, -⟩ := entry_ok hs2
      unfold layerStep at e1
      rw [if_neg hlay] at e1
      injection e1 with e1
      subst e1
      unfold typeStep at e2
      rw [if_neg hp] at e2
      injection e2 with e2
      injection e2 with e4 e5
      subst e4 e5
      have key : ∀ k ∈ [n, (baseAndFile n).2, "case_prefix".toList, "site_prefix".toList], NotSet pre k →
          s1.attrs k = a k := by
        intro k hk hk2
        exact readLines_frame k (hl k hk) _ _ _ hs1 hk2
      have hexp : expand s1.attrs v = .ok f := by
        apply expand_fileName _ _ hF
        · rw [key _ (by simp) hcn, hc]
        · rw [key _ (by simp) hsn, hs]
      unfold assignTyped at e3
      rw [if_neg string_type.1, if_neg string_type.2, if_pos rfl] at e3
      simp only [hexp] at e3
      have hb : lower v ∉ trueList ++ falseList := by
        rw [List.mem_append]
        exact fun hm => hm.elim hw.1 hw.2
      rw [if_neg hb, if_neg (by decide)] at e3
      split at e3
      · rename_i ha
        injection e3 with e3; injection e3 with e5 e6
        rw [readLines_frame n (hl n (by simp)) post _ _ h1 hn, ← e5]
        refine ⟨(assign_ok ha).1, ?_⟩
        intro hf
        rw [readLines_frame (baseAndFile n).2 (hl _ (by simp)) post _ _ h1
          (fun l' hl'' => hf l' (by simp [hl''])), ← e5, (assign_ok ha).2 _ (file_ne_name n)]
        exact key _ (by simp) (fun l' hl'' => hf l' (by simp [hl'']))
      · simp at e3

/-- **C75, violated for other orders.**  The entry `x_type` decides about `x` only if no other entry stands between
them.  If one does (`ly`), the name of the file becomes the value of the variable itself, a string where a number or a
grid is expected, and its file variable is not set. -/
theorem C75_order_violated (env : Env F) (a a' : Attrs F) (pre mid mid' post : List Str)
    (lt ly l nT T nY vY tY n v case site f : Str)
    (hl : ∀ k ∈ [n, (baseAndFile n).2, "case_prefix".toList, "site_prefix".toList],
      ∀ m b b', env.layerVars m b = some b' → b' k = b k)
    (_hT : IsEntry lt nT T "string".toList) (_hTn : nT = (baseAndFile n).1 ++ "_type".toList)
    (hY : IsEntry ly nY vY tY) (hE : IsEntry l n v "string".toList) (hmid' : NoEntry mid')
    (hpre : ¬ (baseAndFile n).1 ++ "_type".toList <+: nY) (hlay : n ≠ "n_layers".toList)
    (hw : ¬ IsTrueWord v ∧ ¬ IsFalseWord v)
    (h : readConfig env a (pre ++ lt :: (mid ++ ly :: (mid' ++ l :: post))) = .ok a')
    (hc : a "case_prefix".toList = some (.str case)) (hs : a "site_prefix".toList = some (.str site))
    (hcn : NotSet (pre ++ lt :: (mid ++ ly :: (mid' ++ l :: post))) "case_prefix".toList)
    (hsn : NotSet (pre ++ lt :: (mid ++ ly :: (mid' ++ l :: post))) "site_prefix".toList)
    (hn : NotSet post n) (hf : NotSet (pre ++ lt :: (mid ++ ly :: (mid' ++ post))) (baseAndFile n).2)
    (hF : FileName case site v f) :
    a' n = some (.str f) ∧ a' (baseAndFile n).2 = a (baseAndFile n).2 := by
  have e : pre ++ lt :: (mid ++ ly :: (mid' ++ l :: post)) = (pre ++ lt :: (mid ++ ly :: mid')) ++ l :: post := by simp
  rw [e] at h
  have sub : ∀ k, NotSet (pre ++ lt :: (mid ++ ly :: (mid' ++ l :: post))) k →
      NotSet (pre ++ lt :: (mid ++ ly :: mid')) k := by
    intro k hk l' hl'
    refine hk l' ?_
    simp only [List.mem_append, List.mem_cons] at hl' ⊢
    tauto
  have hno : NoTypeBefore (pre ++ lt :: (mid ++ ly :: mid')) n := by
    intro pre1 ly' mid1 nY' vY' tY' e' g1 g2
    -- the last entry is `ly`
    have hlast : ∀ (p p' m m' : List Str) (x y : Str) (nx vx tx ny vy ty : Str), p ++ x :: m = p' ++ y :: m' →
        NoEntry m → NoEntry m' → IsEntry x nx vx tx → IsEntry y ny vy ty → x = y := by
      intro p
      induction p with
      | nil =>
        intro p' m m' x y nx vx tx ny vy ty e hm hm' hx hy
        cases p' with
        | nil => simp only [List.nil_append, List.cons.injEq] at e; exact e.1
        | cons z zs =>
          simp only [List.nil_append, List.cons_append, List.cons.injEq] at e
          exact absurd hy (hm y (by rw [e.2]; simp) _ _ _)
      | cons w ws ih =>
        intro p' m m' x y nx vx tx ny vy ty e hm hm' hx hy
        cases p' with
        | nil =>
          simp only [List.nil_append, List.cons_append, List.cons.injEq] at e
          exact absurd hx (hm' x (by rw [← e.2]; simp) _ _ _)
        | cons z zs =>
          simp only [List.cons_append, List.cons.injEq] at e
          exact ih zs m m' x y nx vx tx ny vy ty e.2 hm hm' hx hy
    have e'' : (pre ++ lt :: mid) ++ ly :: mid' = pre1 ++ ly' :: mid1 := by rw [← e']; simp
    have := hlast _ _ _ _ _ _ _ _ _ _ _ _ e'' hmid' g1 hY g2
    subst this
    have e3 := (C75_format _ _ _ _).2 hY
    rw [(C75_format _ _ _ _).2 g2] at e3
    simp only [Option.some.injEq, Prod.mk.injEq] at e3
    rw [e3.1]
    exact hpre
  obtain ⟨r1, r2⟩ := C75_string env a a' _ post l n v case site f hl hE hno hlay hw h hc hs (sub _ hcn) (sub _ hsn)
    hn hF
  exact ⟨r1, r2 (by
    have e4 : (pre ++ lt :: (mid ++ ly :: mid')) ++ post = pre ++ lt :: (mid ++ ly :: (mid' ++ post)) := by simp
    rw [e4]; exact hf)⟩

/-- **C75, unknown types.**  An entry with any other type leaves every variable as it was, and the reading goes on. -/
theorem C75_unknown_type (env : Env F) (st : St F) (l n v t : Str) (hE : IsEntry l n v t)
    (ht : t ∉ ["double", "float", "long", "int", "string"].map String.toList) (hlay : n ≠ "n_layers".toList)
    (hpre : ¬ (baseAndFile n).1 ++ "_type".toList <+: st.lastName) :
    line env st l = .ok ⟨st.attrs, n, .str v⟩ := by
  rw [line_entry hE]
  simp only [List.map_cons, List.map_nil, List.mem_cons, List.not_mem_nil, or_false, not_or] at ht
  have hp : ¬ ((baseAndFile n).1 ++ "_type".toList).isPrefixOf st.lastName = true :=
    fun hh => hpre (List.isPrefixOf_iff_prefix.1 hh)
  simp only [entry, layerStep, if_neg hlay, typeStep, if_neg hp, assignTyped]
  rw [if_neg (by tauto), if_neg (by tauto), if_neg (by tauto)]

/-! ## A file -/

/-- An environment that reads decimal digits. -/
def digits (s : Str) : Option ℤ :=
  if s ≠ [] ∧ s.all Char.isDigit = true then some (s.foldl (fun n c => 10 * n + ((c.toNat : ℤ) - 48)) 0) else none

def demoEnv : Env ℤ := ⟨digits, digits, fun n => n.all fun c => c.isAlphanum || c = '_', 0, fun _ _ => none⟩

def demoAttrs : Attrs ℤ := fun k =>
  if k = "case_prefix".toList then some (.str "June_20".toList)
  else if k = "site_prefix".toList then some (.str "Treynor".toList) else none

def demoFile : List Str :=
  ["#=======\n", "comp_status         | Enabled          | string   | component status\n", "\n",
   "P_type  | Grid | string | allowed input types\n", "# rain | rates | in | mm/h\n",
   "P       | [case_prefix]_rain.rts | string | precipitation rate\n",
   "T_air_type | Scalar | string | types\n", "T_air | 20 | double | air temp\n",
   "SAVE_P  | Yes | string | save?\n"].map String.toList

/-- The grid of rain rates, the temperature and the switch arrive where they belong. -/
example : (match readConfig demoEnv demoAttrs demoFile with
    | .ok a' =>
      (match a' "P_file".toList with | some (.str s) => decide (s = "June_20_rain.rts".toList) | _ => false) &&
      (match a' "P".toList with | some (.float x) => decide (x = 0) | _ => false) &&
      (match a' "T_air".toList with | some (.float x) => decide (x = 20) | _ => false) &&
      (match a' "SAVE_P".toList with | some (.bool b) => b | _ => false)
    | .error _ => false) = true := by decide +kernel

/-- With the entries out of order the file name lands in the variable. -/
example : (match readConfig demoEnv demoAttrs (["P_type | Grid | string | t\n", "dt | 60 | double | s\n",
      "P | [site_prefix]_rain.rts | string | rain\n"].map String.toList) with
    | .ok a' =>
      (match a' "P".toList with | some (.str s) => decide (s = "Treynor_rain.rts".toList) | _ => false) &&
      (a' "P_file".toList).isNone
    | .error _ => false) = true := by decide +kernel

example : IsEntry "T_air | 20 | double | air temp\n".toList "T_air".toList "20".toList "double".toList :=
  (C75_format _ _ _ _).1 (by decide +kernel)

end Cfg
