import Verif.CfgDirModel
import Verif.CfgProps

/-!
# Directories (C76)
-/

set_option autoImplicit false

namespace Cfg

/-! ## Specification: what a path denotes -/

/-- Walking from a directory (given by the names on the way from the root) along the components of a path. -/
def goTo : List Str → List Str → List Str
  | dir, [] => dir
  | dir, c :: cs =>
    if c = [] ∨ c = ['.'] then goTo dir cs
    else if c = ['.', '.'] then goTo dir.dropLast cs
    else goTo (dir ++ [c]) cs

/-- The directory that the path `p` denotes for a process that works in the directory `cwd`. -/
def dirOf (cwd p : Str) : List Str :=
  if p.head? = some '/' then goTo [] (split '/' p) else goTo (goTo [] (split '/' cwd)) (split '/' p)

/-! ## Paths -/

theorem goTo_append (dir a b : List Str) : goTo dir (a ++ b) = goTo (goTo dir a) b := by
  induction a generalizing dir with
  | nil => rfl
  | cons c cs ih =>
    simp only [List.cons_append, goTo]
    split_ifs <;> exact ih _

theorem split_mid (c : Char) (a b : Str) : split c (a ++ c :: b) = split c a ++ split c b := by
  induction a with
  | nil => simp [split]
  | cons x xs ih =>
    simp only [List.cons_append, split]
    split_ifs with h
    · rw [ih]; rfl
    · rw [ih]
      cases hs : split c xs with
      | nil => exact absurd hs (split_ne_nil c xs)
      | cons w ws => rfl

theorem split_no_sep (c : Char) (s w : Str) (h : w ∈ split c s) : c ∉ w := by
  induction s generalizing w with
  | nil => simp [split] at h; simp [h]
  | cons x xs ih =>
    simp only [split] at h
    split_ifs at h with hx
    · rcases List.mem_cons.1 h with rfl | h
      · simp
      · exact ih w h
    · cases hs : split c xs with
      | nil => exact absurd hs (split_ne_nil c xs)
      | cons v vs =>
        rw [hs] at h ih
        rcases List.mem_cons.1 h with rfl | h
        · simp [ih v (by simp), Ne.symm hx]
        · exact ih w (by simp [h])

/-- A component that is the name of a directory. -/
def Clean (c : Str) : Prop := c ≠ [] ∧ c ≠ ['.'] ∧ c ≠ ['.', '.'] ∧ '/' ∉ c

theorem goTo_clean (dir cs : List Str) (hd : ∀ c ∈ dir, Clean c) (hc : ∀ c ∈ cs, '/' ∉ c) :
    ∀ c ∈ goTo dir cs, Clean c := by
  induction cs generalizing dir with
  | nil => exact hd
  | cons x xs ih =>
    have hx : ∀ c ∈ xs, '/' ∉ c := fun c h => hc c (by simp [h])
    simp only [goTo]
    split_ifs with h1 h2
    · exact ih dir hd hx
    · exact ih _ (fun c h => hd c (List.dropLast_subset _ h)) hx
    · apply ih _ _ hx
      intro c h
      rcases List.mem_append.1 h with h | h
      · exact hd c h
      · simp only [List.mem_singleton] at h
        subst h
        simp only [not_or] at h1
        exact ⟨h1.1, h1.2, h2, hc c (by simp)⟩

theorem goTo_names (dir cs : List Str) (h : ∀ c ∈ cs, Clean c) : goTo dir cs = dir ++ cs := by
  induction cs generalizing dir with
  | nil => simp [goTo]
  | cons x xs ih =>
    obtain ⟨h1, h2, h3, -⟩ := h x (by simp)
    simp only [goTo]
    rw [if_neg (by simp [h1, h2]), if_neg h3, ih _ (fun c hc => h c (by simp [hc]))]
    simp

theorem norm_eq_goTo (dir cs : List Str) (hd : ∀ c ∈ dir, Clean c) (hc : ∀ c ∈ cs, '/' ∉ c) :
    cs.foldl normStep dir = goTo dir cs := by
  induction cs generalizing dir with
  | nil => rfl
  | cons x xs ih =>
    have hx : ∀ c ∈ xs, '/' ∉ c := fun c h => hc c (by simp [h])
    have hlast : dir.getLast? ≠ some ['.', '.'] := by
      intro e
      exact (hd _ (List.mem_of_getLast? e)).2.2.1 rfl
    simp only [List.foldl_cons, goTo, normStep]
    split_ifs with h1 h2 h3 h3
    · exact ih dir hd hx
    · rcases h2 with h2 | h2
      · exact absurd h3 h2
      · exact absurd h2 hlast
    · apply ih _ _ hx
      intro c h
      rcases List.mem_append.1 h with h | h
      · exact hd c h
      · simp only [List.mem_singleton] at h
        subst h
        simp only [not_or] at h1
        exact ⟨h1.1, h1.2, h3, hc c (by simp)⟩
    · exact ih _ (fun c h => hd c (List.dropLast_subset _ h)) hx
    · simp only [not_or, not_not] at h2
      exact absurd h2.1 h3

theorem split_joinSlash (cs : List Str) (h : ∀ c ∈ cs, '/' ∉ c) (hne : cs ≠ []) :
    split '/' (joinSlash cs) = cs := by
  induction cs with
  | nil => exact absurd rfl hne
  | cons x xs ih =>
    cases xs with
    | nil => exact split_no _ _ (h x (by simp))
    | cons y ys =>
      simp only [joinSlash]
      rw [split_append _ _ _ (h x (by simp)), ih (fun c hc => h c (by simp [hc])) (by simp)]

/-- An absolute path made of names denotes that directory. -/
theorem goTo_pathOf (cs : List Str) (h : ∀ c ∈ cs, Clean c) : goTo [] (split '/' ('/' :: joinSlash cs)) = cs := by
  have e : split '/' ('/' :: joinSlash cs) = [] :: split '/' (joinSlash cs) := by simp [split]
  rw [e]
  simp only [goTo, true_or, if_true]
  cases cs with
  | nil => rfl
  | cons c cs =>
    rw [split_joinSlash _ (fun c hc => (h c hc).2.2.2) (by simp), goTo_names _ _ h, List.nil_append]

theorem normpath_denotes (p : Str) : goTo [] (split '/' (normpath p)) = goTo [] (split '/' p) := by
  have h1 : ∀ c ∈ split '/' p, '/' ∉ c := fun c hc => split_no_sep _ _ _ hc
  unfold normpath
  rw [norm_eq_goTo [] _ (by simp) h1]
  exact goTo_pathOf _ (goTo_clean [] _ (by simp) h1)

theorem normpath_head (p : Str) : (normpath p).head? = some '/' := rfl

theorem abspath_head (cwd p : Str) : (abspath cwd p).head? = some '/' := by
  unfold abspath
  split_ifs <;> exact normpath_head _

/-- The absolute path denotes the same directory, whatever the working directory is later. -/
theorem abspath_denotes (cwd cwd' p : Str) : dirOf cwd' (abspath cwd p) = dirOf cwd p := by
  rw [dirOf, if_pos (abspath_head cwd p)]
  unfold abspath dirOf
  split_ifs with h1 h2
  · exact normpath_denotes p
  · rw [normpath_denotes]
    rcases h2 with h2 | h2
    · subst h2
      simp [split, goTo]
    · obtain ⟨l, rfl⟩ : ∃ l, cwd = l ++ ['/'] := by
        refine ⟨cwd.dropLast, ?_⟩
        exact (List.dropLast_append_getLast? _ h2).symm
      rw [List.append_assoc, List.singleton_append, split_mid, goTo_append]
      congr 1
      have : split '/' (l ++ ['/']) = split '/' l ++ [[]] := split_mid '/' l []
      rw [this, goTo_append]
      simp [goTo]
  · rw [normpath_denotes, split_mid, goTo_append]

theorem slash_denotes (cwd d : Str) (h : d ≠ []) : dirOf cwd (d ++ ['/']) = dirOf cwd d := by
  have hh : (d ++ ['/']).head? = d.head? := by
    cases d with
    | nil => exact absurd rfl h
    | cons x xs => rfl
  have e : split '/' (d ++ ['/']) = split '/' d ++ [[]] := split_mid '/' d []
  unfold dirOf
  rw [hh, e]
  split_ifs <;> rw [goTo_append] <;> simp [goTo]

theorem dirOf_join (cwd c d : Str) (hc : c.getLast? = some '/') :
    dirOf cwd (c ++ d) = goTo (dirOf cwd c) (split '/' d) := by
  obtain ⟨l, rfl⟩ : ∃ l, c = l ++ ['/'] := ⟨c.dropLast, (List.dropLast_append_getLast? _ hc).symm⟩
  have hh : (l ++ ['/'] ++ d).head? = (l ++ ['/']).head? := by
    cases l <;> rfl
  have e : split '/' (l ++ ['/'] ++ d) = split '/' l ++ split '/' d := by
    rw [List.append_assoc, List.singleton_append, split_mid]
  have e' : split '/' (l ++ ['/']) = split '/' l ++ [[]] := split_mid '/' l []
  unfold dirOf
  rw [hh, e, e']
  split_ifs <;> rw [goTo_append, goTo_append] <;> simp [goTo]

/-! ## The directories -/

/-- `expanduser` only changes paths that begin with a tilde. -/
def TildeOnly (os : Os) : Prop := ∀ s, s.head? ≠ some '~' → os.expanduser s = s

theorem expandDir_ok {os : Os} {cfg d r : Str} (h : expandDir os cfg d = .ok r) :
    os.expanduser d ≠ [] ∧ r.getLast? = some '/' ∧
    (r = (if (os.expanduser d).head? = some '.' then abspath os.cwd (cfg ++ os.expanduser d) else os.expanduser d) ∨
     r = (if (os.expanduser d).head? = some '.' then abspath os.cwd (cfg ++ os.expanduser d) else os.expanduser d) ++
       ['/']) := by
  unfold expandDir at h
  simp only at h
  generalize os.expanduser d = u at *
  cases u with
  | nil => simp at h
  | cons c cs =>
    simp only [List.head?_cons, Option.some.injEq] at h ⊢
    refine ⟨by simp, ?_⟩
    split_ifs at h ⊢ with h1 h2
    all_goals injection h with h; subst h
    · exact ⟨h2, Or.inl rfl⟩
    · exact ⟨List.getLast?_concat .., Or.inr rfl⟩
    · rename_i h3; exact ⟨h3, Or.inl rfl⟩
    · exact ⟨List.getLast?_concat .., Or.inr rfl⟩

/-- **C76, directories relative to the configuration file.**  An input directory that begins with a dot denotes, from
any working directory, the directory reached from that of the configuration file, and its path ends with a slash.  The
same holds for the output directory. -/
theorem C76_relative_to_cfg (os : Os) (cfgD cfgF : Option Str) (i o : Str) (D : Dirs)
    (h : setDirectories os cfgD cfgF i o = .ok D) (hT : TildeOnly os)
    (hcfg : ∀ d, cfgD = some d → d.getLast? = some '/') (cwd' : Str) :
    (i.head? = some '.' → dirOf cwd' D.inp = goTo (dirOf os.cwd D.cfg) (split '/' i)) ∧
    (o.head? = some '.' → dirOf cwd' D.out = goTo (dirOf os.cwd D.cfg) (split '/' o)) ∧
    D.inp.getLast? = some '/' ∧ D.out.getLast? = some '/' := by
  unfold setDirectories at h
  split at h
  · simp at h
  rename_i cfg h1
  split at h
  · simp at h
  rename_i inp h2
  split at h
  · simp at h
  rename_i out h3
  injection h with h
  subst h
  have hlast : cfg.getLast? = some '/' := by
    unfold cfgDir at h1
    split at h1
    · rename_i d; injection h1 with h1; subst h1; exact hcfg d rfl
    · split at h1
      · simp at h1
      · injection h1 with h1; rw [← h1]; simp
  have key : ∀ d r, expandDir os cfg d = .ok r → d.head? = some '.' →
      dirOf cwd' r = goTo (dirOf os.cwd cfg) (split '/' d) := by
    intro d r hr hd
    have hu : os.expanduser d = d := hT d (by rw [hd]; decide)
    obtain ⟨-, -, e⟩ := expandDir_ok hr
    rw [hu, if_pos hd] at e
    have hne : abspath os.cwd (cfg ++ d) ≠ [] := by
      intro e; have := abspath_head os.cwd (cfg ++ d); rw [e] at this; simp at this
    rw [← dirOf_join _ _ _ hlast]
    rcases e with rfl | rfl
    · exact abspath_denotes _ _ _
    · rw [slash_denotes _ _ hne]; exact abspath_denotes _ _ _
  exact ⟨key i inp h2, key o out h3, (expandDir_ok h2).2.1, (expandDir_ok h3).2.1⟩

/-- The directory of the configuration file: `dir/name` is in `dir`, a bare name in the working directory. -/
theorem C76_cfg_dir (os : Os) (dir name : Str) (hn : '/' ∉ name) :
    (∃ c, cfgDir os none (some (dir ++ '/' :: name)) = .ok c ∧ dirOf os.cwd c = dirOf os.cwd (dir ++ ['/']) ∧
      c.getLast? = some '/') ∧
    (os.cwd.head? = some '/' → ∃ c, cfgDir os none (some name) = .ok c ∧ dirOf os.cwd c = dirOf os.cwd [] ∧
      c.getLast? = some '/') := by
  constructor
  · have e1 : rfind '/' (dir ++ '/' :: name) = dir.length := rfind_last _ _ _ hn
    have e2 : (dir ++ '/' :: name).take ((dir.length : ℤ) + 1).toNat = dir ++ ['/'] := by
      have : ((dir.length : ℤ) + 1).toNat = (dir ++ ['/']).length := by simp
      rw [this, show dir ++ '/' :: name = (dir ++ ['/']) ++ name by simp]
      exact List.take_left
    have e3 : dirname (dir ++ '/' :: name) =
        if dir ++ ['/'] ≠ [] ∧ dir ++ ['/'] ≠ List.replicate (dir ++ ['/']).length '/' then
          rstripSlash (dir ++ ['/']) else dir ++ ['/'] := by
      unfold dirname
      rw [e1, e2]
    have e4 : cfgDir os none (some (dir ++ '/' :: name)) = .ok ((if dirname (dir ++ '/' :: name) = [] then os.cwd else
        dirname (dir ++ '/' :: name)) ++ ['/']) := rfl
    rw [e4]
    by_cases hs : dir ++ ['/'] = List.replicate (dir ++ ['/']).length '/'
    · rw [if_neg (fun hh => hh.2 hs)] at e3
      rw [e3, if_neg (by simp)]
      exact ⟨_, rfl, slash_denotes _ _ (by simp), by simp⟩
    · rw [if_pos ⟨by simp, hs⟩] at e3
      -- what is left after the trailing slashes are removed
      have hr : dir ++ ['/'] = rstripSlash (dir ++ ['/']) ++
          ((dir ++ ['/']).reverse.takeWhile (· == '/')).reverse := by
        unfold rstripSlash
        rw [← List.reverse_append, List.takeWhile_append_dropWhile, List.reverse_reverse]
      have hall : ∀ x ∈ ((dir ++ ['/']).reverse.takeWhile (· == '/')).reverse, x = '/' := by
        intro x hx
        have := List.mem_takeWhile_imp (List.mem_reverse.1 hx)
        simpa using this
      have hne : rstripSlash (dir ++ ['/']) ≠ [] := by
        intro e
        apply hs
        apply List.eq_replicate_iff.2
        refine ⟨rfl, ?_⟩
        intro x hx
        rw [hr, e, List.nil_append] at hx
        exact hall x hx
      rw [e3, if_neg hne]
      refine ⟨_, rfl, ?_, by simp⟩
      rw [slash_denotes _ _ hne]
      have gen : ∀ (t u : Str), u ≠ [] → (∀ x ∈ t, x = '/') → dirOf os.cwd (u ++ t) = dirOf os.cwd u := by
        intro t
        induction t with
        | nil => intro u _ _; rw [List.append_nil]
        | cons y ys ih =>
          intro u hu hy
          have : y = '/' := hy y (by simp)
          subst this
          rw [show u ++ '/' :: ys = (u ++ ['/']) ++ ys by simp, ih _ (by simp) (fun x hx => hy x (by simp [hx])),
            slash_denotes _ _ hu]
      have := gen _ _ hne hall
      rw [← hr] at this
      exact this.symm
  · intro hcwd
    have e1 : rfind '/' name = -1 := rfind_no _ _ hn
    simp only [cfgDir, dirname, e1]
    refine ⟨os.cwd ++ ['/'], by simp, ?_, by simp⟩
    have hne : os.cwd ≠ [] := by intro e; rw [e] at hcwd; simp at hcwd
    rw [slash_denotes _ _ hne]
    unfold dirOf
    rw [if_pos hcwd, if_neg (by simp)]
    simp [split, goTo]

/-- **C76, twice.**  `initialize` sets the directories twice.  The second time changes nothing, even if the process has
changed its working directory in between. -/
theorem C76_idempotent (os : Os) (cfgD cfgF cfgF' : Option Str) (i o : Str) (D : Dirs) (cwd' : Str)
    (h : setDirectories os cfgD cfgF i o = .ok D) (hT : TildeOnly os)
    (hi : (os.expanduser i).head? ≠ some '~') (ho : (os.expanduser o).head? ≠ some '~') :
    setDirectories { os with cwd := cwd' } (some D.cfg) cfgF' D.inp D.out = .ok D := by
  unfold setDirectories at h
  split at h
  · simp at h
  rename_i cfg h1
  split at h
  · simp at h
  rename_i inp h2
  split at h
  · simp at h
  rename_i out h3
  injection h with h
  subst h
  have key : ∀ d r, expandDir os cfg d = .ok r → (os.expanduser d).head? ≠ some '~' →
      expandDir { os with cwd := cwd' } cfg r = .ok r := by
    intro d r hr hd
    obtain ⟨hne, hl, e⟩ := expandDir_ok hr
    have hhead : r.head? ≠ some '~' ∧ r.head? ≠ some '.' := by
      have hh : r.head? = (if (os.expanduser d).head? = some '.' then abspath os.cwd (cfg ++ os.expanduser d)
          else os.expanduser d).head? := by
        have hne' : (if (os.expanduser d).head? = some '.' then abspath os.cwd (cfg ++ os.expanduser d)
            else os.expanduser d) ≠ [] := by
          split_ifs
          · intro e; have := abspath_head os.cwd (cfg ++ os.expanduser d); rw [e] at this; simp at this
          · exact hne
        rcases e with e | e
        · rw [e]
        · rw [e]
          revert hne'
          generalize (if (os.expanduser d).head? = some '.' then abspath os.cwd (cfg ++ os.expanduser d)
            else os.expanduser d) = w
          intro hw
          cases w with
          | nil => exact absurd rfl hw
          | cons x xs => rfl
      rw [hh]
      split_ifs with hdot
      · rw [abspath_head]; decide
      · exact ⟨hd, hdot⟩
    have hu : os.expanduser r = r := hT r hhead.1
    unfold expandDir
    simp only [hu]
    cases r with
    | nil => simp at hl
    | cons c cs =>
      have hc : c ≠ '.' := by
        intro e; exact hhead.2 (by rw [e]; rfl)
      simp only [if_neg hc]
      rw [if_pos hl]
  simp only [setDirectories, cfgDir, key i inp h2 hi, key o out h3 ho]
  rfl

/-- **C76, static directories.**  Topography, soil, meteorology and miscellaneous files are looked for in their own
subdirectory of the input directory if it exists, and in the input directory otherwise. -/
theorem C76_static (os : Os) (cfgD cfgF : Option Str) (i o : Str) (D : Dirs)
    (h : setDirectories os cfgD cfgF i o = .ok D) :
    ∀ p ∈ [(D.topo, "__topo/"), (D.soil, "__soil/"), (D.met, "__met/"), (D.misc, "__misc/")],
      (os.pathExists (D.inp ++ p.2.toList) = true → p.1 = D.inp ++ p.2.toList) ∧
      (os.pathExists (D.inp ++ p.2.toList) = false → p.1 = D.inp) := by
  unfold setDirectories at h
  split at h
  · simp at h
  split at h
  · simp at h
  split at h
  · simp at h
  injection h with h
  subst h
  have key : ∀ (inp : Str) (n m : String), n.toList ++ ['/'] = m.toList →
      (os.pathExists (inp ++ m.toList) = true → subDir os inp n = inp ++ m.toList) ∧
      (os.pathExists (inp ++ m.toList) = false → subDir os inp n = inp) := by
    intro inp n m e
    simp only [subDir, List.append_assoc, e]
    constructor
    · intro hp; rw [if_pos hp]
    · intro hp; rw [if_neg (by simp [hp])]
  intro p hp
  simp only [List.mem_cons, List.not_mem_nil, or_false] at hp
  rcases hp with rfl | rfl | rfl | rfl
  · exact key _ "__topo" "__topo/" (by decide)
  · exact key _ "__soil" "__soil/" (by decide)
  · exact key _ "__met" "__met/" (by decide)
  · exact key _ "__misc" "__misc/" (by decide)

/-- **C76, violated without the dot.**  A relative directory that is given by its name alone, `input` rather than
`./input`, is not taken relative to the configuration file: its meaning changes with the working directory. -/
theorem C76_bare_name_violated (os : Os) (cfgD cfgF : Option Str) (i o : Str) (D : Dirs)
    (h : setDirectories os cfgD cfgF i o = .ok D) (hT : TildeOnly os) (hi : Clean i)
    (hd : i.head? ≠ some '.' ∧ i.head? ≠ some '~') (cwd' : Str) :
    dirOf cwd' D.inp = dirOf cwd' [] ++ [i] := by
  unfold setDirectories at h
  split at h
  · simp at h
  rename_i cfg h1
  split at h
  · simp at h
  rename_i inp h2
  split at h
  · simp at h
  injection h with h
  subst h
  have hu : os.expanduser i = i := hT i hd.2
  obtain ⟨-, -, e⟩ := expandDir_ok h2
  rw [hu, if_neg hd.1] at e
  have hne := hi.1
  have hs : i.head? ≠ some '/' := by
    intro e
    cases i with
    | nil => exact hne rfl
    | cons x xs =>
      simp only [List.head?_cons, Option.some.injEq] at e
      exact hi.2.2.2 (by simp [e])
  have hdir : dirOf cwd' i = dirOf cwd' [] ++ [i] := by
    unfold dirOf
    rw [if_neg hs, if_neg (by simp), split_no _ _ hi.2.2.2, goTo_names _ [i] (by simpa using hi)]
    simp [split, goTo]
  simp only
  rcases e with rfl | rfl
  · exact hdir
  · rw [slash_denotes _ _ hne, hdir]

/-! ## A case -/

def demoOs : Os := ⟨"/home/user".toList, id, fun p => p = "/data/Treynor/__met/".toList⟩

example : TildeOnly demoOs := fun _ _ => rfl

/-- The configuration files are in `/data/Treynor/cases`, the input is one directory up. -/
example : setDirectories demoOs none (some "/data/Treynor/cases/June_20_driver.cfg".toList) "..".toList
    "./out".toList = .ok ⟨"/data/Treynor/cases/".toList, "/data/Treynor/".toList, "/data/Treynor/cases/out/".toList,
      "/data/Treynor/".toList, "/data/Treynor/".toList, "/data/Treynor/__met/".toList, "/data/Treynor/".toList⟩ := by
  decide +kernel

end Cfg
