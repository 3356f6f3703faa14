import Verif.PlanModel
import Mathlib.Data.Rat.Floor
import Mathlib.Algebra.Order.Ring.Rat
import Mathlib.Logic.Function.Iterate
import Mathlib.Data.List.Nodup
import Mathlib.Tactic.NormNum
import Mathlib.Tactic.IntervalCases

set_option autoImplicit false

/-!
# Preparing the input files of a run: what the settings that are made have to say (C280 to C283)
-/

namespace PlanSpec

/-- A date of the Gregorian calendar. -/
structure Date where
  year : ℕ
  month : ℕ
  day : ℕ
deriving DecidableEq

/-- The number of days of a month. -/
def monthLength (y m : ℕ) : ℕ :=
  if m = 2 then if (y % 4 = 0 ∧ y % 100 ≠ 0) ∨ y % 400 = 0 then 29 else 28
  else if m ∈ [4, 6, 9, 11] then 30 else 31

/-- The day after a date. -/
def nextDay (a : Date) : Date :=
  if a.day < monthLength a.year a.month then ⟨a.year, a.month, a.day + 1⟩
  else if a.month < 12 then ⟨a.year, a.month + 1, 1⟩
  else ⟨a.year + 1, 1, 1⟩

/-- `b` comes `n` days after `a`. -/
def Later (n : ℕ) (a b : Date) : Prop := nextDay^[n] a = b

instance (n : ℕ) (a b : Date) : Decidable (Later n a b) := inferInstanceAs (Decidable (_ = _))

/-- A number in decimal digits. -/
def num (n : ℕ) : List Char := Nat.toDigits 10 n

/-- A number below 100 with two digits. -/
def num2 (n : ℕ) : List Char := if n < 10 then '0' :: num n else num n

/-- A date as it is written in the time settings, as in 2015-10-01. -/
def iso (a : Date) : List Char := num a.year ++ '-' :: num2 a.month ++ '-' :: num2 a.day

/-- A period as it is written in file names, as in 2015-10_to_2018-10. -/
def rangeText (a b : Date) : List Char :=
  num a.year ++ '-' :: num2 a.month ++ "_to_".toList ++ num b.year ++ '-' :: num2 b.month

/-- The names of the months. -/
def monthName (m : ℕ) : List Char :=
  (["January", "February", "March", "April", "May", "June", "July", "August", "September", "October", "November",
    "December"].getD (m - 1) "").toList

/-- The sources of rainfall that can be prepared. -/
inductive Product
  | ngen | chirps | chirps2 | gldas
deriving DecidableEq

/-- Time between two values of a product, in seconds. -/
def Product.step : Product → ℕ
  | .ngen => 1 * 3600
  | .chirps => 6 * 3600
  | .chirps2 => 6 * 3600
  | .gldas => 3 * 3600

/-- First day and day after the last one for which there are values. -/
def Product.period : Product → Date × Date
  | .ngen => (⟨2012, 6, 1⟩, ⟨2012, 7, 1⟩)
  | .chirps => (⟨2015, 10, 1⟩, ⟨2018, 10, 1⟩)
  | .chirps2 => (⟨2005, 1, 1⟩, ⟨2015, 1, 1⟩)
  | .gldas => (⟨2015, 10, 1⟩, ⟨2018, 10, 1⟩)

/-- The period of a product as it is written in file names. -/
def Product.range (p : Product) : List Char := rangeText p.period.1 p.period.2

/-- The name of the file with the values of a product for a site. -/
def Product.file (site : List Char) : Product → List Char
  | .ngen => site ++ "_".toList ++ Product.range .ngen ++ ".csv".toList
  | .chirps => "CHIRPS_Rain_".toList ++ site ++ "_".toList ++ Product.range .chirps ++ ".rts".toList
  | .chirps2 => "CHIRPS_Rain_".toList ++ site ++ "_".toList ++ Product.range .chirps2 ++ ".rts".toList
  | .gldas => "GLDAS_Rain_".toList ++ site ++ "_".toList ++ Product.range .gldas ++ ".rts".toList

/-- The name of a product in the name of a directory. -/
def Product.name : Product → List Char
  | .ngen => "NGEN_CSV".toList
  | .chirps => "CHIRPS".toList
  | .chirps2 => "CHIRPS".toList
  | .gldas => "GLDAS".toList

/-- The options choose one source of rainfall and no other. -/
def Only (o : Plan.Opts) (p : Product) : Prop :=
  o.testRain = false ∧ o.gpm = false ∧
  o.ngenCsv = some (decide (p = .ngen)) ∧ o.chirps = decide (p = .chirps) ∧ o.chirps2 = decide (p = .chirps2) ∧
  o.gldas = decide (p = .gldas) ∧ (if p = .ngen then o.nextgen = true else o.eastAfrica = true)

/-- The nine basins that are known by name, with the size of the cells in seconds of arc that the name states. -/
def sites : List (String × ℕ) :=
  [("Tana_120sec", 120), ("Galana_120sec", 120), ("Baro-Gam_60sec", 60), ("Awash_120sec", 120), ("Omo_120sec", 120),
   ("Shebelle-Imi_60sec", 60), ("Ganale-Welmel_60sec", 60), ("Guder_30sec", 30), ("Muger_30sec", 30)]

end PlanSpec

namespace Plan

open PlanSpec

/-- The calls of one object: the result of a last call with the options `o` after the calls `os` (the last of them
first). -/
abbrev result (o : Opts) (os : List Opts) : Except String (Option Made) := (prepare o (after os)).2

/-- The value that is put into a template under a name. -/
abbrev val (e : Entries) (name : String) : Option Str := e.lookup name

/-- The periods that occur. -/
def Known (s : State) : Prop := ∀ t, s.time = some t → t = period1 ∨ t = period2 ∨ t = period3

theorem metNgen_time (o : Opts) (t : TimeInfo) (s : State) : (metNgen o t s).time = s.time := by
  unfold metNgen; split <;> rfl

theorem metTest_time (o : Opts) (s : State) : (metTest o s).time = s.time := by
  unfold metTest; split <;> rfl

theorem metProduct_time (on : Bool) (a b c : Str) (o : Opts) (t : TimeInfo) (s : State) :
    (metProduct on a b c o t s).time = s.time := by
  unfold metProduct; split <;> rfl

theorem setMet_time {o : Opts} {s s' : State} (h : setMet o s = .ok s') : s'.time = s.time := by
  unfold setMet at h
  split at h
  · cases h
  · rename_i t ht
    split at h
    · cases h
    · cases h
      simp only [metProduct_time, metTest_time, metNgen_time]

theorem setTime_known {o : Opts} {s s' : State} (hs : Known s) (h : setTime o s = .ok s') : Known s' := by
  unfold setTime at h
  intro t ht
  dsimp only at h
  generalize o.ngenCsv = n at h
  rcases n with _ | _ | _
  · cases h
  · simp only [Except.ok.injEq] at h
    rw [← h] at ht
    split at ht
    · split at ht
      · simp only [Option.some.injEq] at ht; exact Or.inl ht.symm
      · split at ht
        · simp only [Option.some.injEq] at ht; exact Or.inr (Or.inl ht.symm)
        · exact hs t ht
    · exact hs t ht
  · simp only [Except.ok.injEq] at h
    rw [← h] at ht
    simp only [Option.some.injEq] at ht
    exact Or.inr (Or.inr ht.symm)

theorem prepare_known {o : Opts} {s : State} (hs : Known s) : Known (prepare o s).1 := by
  unfold prepare
  split
  · exact hs
  · split
    · intro t ht
      dsimp only at ht
      split at ht
      · split at ht
        · simp only [Option.some.injEq] at ht; exact Or.inl ht.symm
        · split at ht
          · simp only [Option.some.injEq] at ht; exact Or.inr (Or.inl ht.symm)
          · exact hs t ht
      · exact hs t ht
    · rename_i s1 h1
      have k1 := setTime_known hs h1
      split
      · dsimp only
        split
        · exact k1
        · intro t ht
          simp only [metProduct_time, metTest_time, metNgen_time] at ht
          exact k1 t ht
      · rename_i s2 h2
        have k2 : Known s2 := by
          intro t ht
          rw [setMet_time h2] at ht
          exact k1 t ht
        split
        · exact k2
        · split <;> exact k2

theorem after_known (os : List Opts) : Known (after os) := by
  induction os with
  | nil => intro t ht; cases ht
  | cons o os ih => exact prepare_known ih

/-- What a successful call has made. -/
theorem prepare_ok {o : Opts} {s : State} {m : Made} (h : (prepare o s).2 = .ok (some m)) :
    ∃ s1 s2 dir, setTime o s = .ok s1 ∧ setMet o s1 = .ok s2 ∧ cfgDir o s2 = .ok dir ∧ cfgFiles o s2 dir = .ok m := by
  unfold prepare at h
  split at h
  · simp at h
  · split at h
    · simp at h
    · rename_i s1 h1
      split at h
      · simp at h
      · rename_i s2 h2
        split at h
        · simp at h
        · rename_i dir hd
          split at h
          · simp at h
          · rename_i m' hm
            simp only [Except.ok.injEq, Option.some.injEq] at h
            subst h
            exact ⟨s1, s2, dir, h1, h2, hd, hm⟩

theorem cfgFiles_ok {o : Opts} {s : State} {dir : Str} {m : Made} (h : cfgFiles o s dir = .ok m) :
    o.case = "Test1".toList ∧ ∃ t dt typ file ngen, s.time = some t ∧ s.metDt = some dt ∧
      metFile o s = .ok (typ, file, ngen) ∧ m.dir = dir ∧
      m.time = [("start_date", t.startDate), ("start_time", "  00:00:00".toList), ("end_date", t.endDate),
                     ("end_time", "  00:00:00".toList)] ∧
      m.driver = [("dt", o.chanDt), ("T_stop_model", t.stop),
                       ("COMPUTE_STAT_GRIDS", if o.chirps2 then "1".toList else "0".toList),
                       ("CREATE_INDICATORS", "0".toList), ("CREATE_MEDIA_FILES", "1".toList)] ∧
      m.met = metEntries t dt typ file ngen ∧ m.kinematic = chanEntries o dt ∧ m.diffusive = chanEntries o dt ∧
      m.path = [("in_directory", basinDir o), ("out_directory", o.outputDir), ("site_prefix", o.site),
                     ("case_prefix", o.case)] := by
  unfold cfgFiles at h
  split at h
  · cases h
  · rename_i hc
    refine ⟨not_not.mp hc, ?_⟩
    split at h
    · rename_i t dt ht hdt
      split at h
      · cases h
      · rename_i typ file ngen hf
        cases h
        exact ⟨t, dt, typ, file, ngen, ht, hdt, hf, rfl, rfl, rfl, rfl, rfl, rfl, rfl⟩
    · cases h

theorem later_trans {n m : ℕ} {a b c : Date} (h1 : Later n a b) (h2 : Later m b c) : Later (n + m) a c := by
  unfold Later at *
  rw [Nat.add_comm, Function.iterate_add_apply, h1, h2]

theorem later1 : Later (366 + (365 + 365)) ⟨2015, 10, 1⟩ ⟨2018, 10, 1⟩ :=
  later_trans (b := ⟨2016, 10, 1⟩) (by decide +kernel)
    (later_trans (b := ⟨2017, 10, 1⟩) (by decide +kernel) (by decide +kernel))

theorem later2 : Later (1461 + (1461 + (365 + 365))) ⟨2005, 1, 1⟩ ⟨2015, 1, 1⟩ := by
  have y : ∀ k, k ∈ [2005, 2006, 2007, 2009, 2010, 2011, 2013, 2014] → Later 365 ⟨k, 1, 1⟩ ⟨k + 1, 1, 1⟩ := by
    decide +kernel
  have z : ∀ k, k ∈ [2008, 2012] → Later 366 ⟨k, 1, 1⟩ ⟨k + 1, 1, 1⟩ := by decide +kernel
  have f1 := later_trans (y 2005 (by simp)) (later_trans (y 2006 (by simp))
    (later_trans (y 2007 (by simp)) (z 2008 (by simp))))
  have f2 := later_trans (y 2009 (by simp)) (later_trans (y 2010 (by simp))
    (later_trans (y 2011 (by simp)) (z 2012 (by simp))))
  exact later_trans f1 (later_trans f2 (later_trans (y 2013 (by simp)) (y 2014 (by simp))))

/-- **C280.**  Whatever options are set and whatever was prepared before with the same object: if the configuration files
are made, there are two dates such that the time settings name them, midnight of both; the model time at which the run
stops is the number of minutes between them; month, day and hour at which the meteorology starts are those of the first
date; the offset from GMT is -5 for the period of the NextGen data and 3 for those of East Africa; and driver and channels
have the time step that was asked for. -/
theorem C280_period (o : Opts) (os : List Opts) {m : Made} (h : result o os = .ok (some m)) :
    ∃ (a b : Date) (n : ℕ), 0 < n ∧ Later n a b ∧
      val m.time "start_date" = some (iso a) ∧ val m.time "end_date" = some (iso b) ∧
      val m.time "start_time" = some "  00:00:00".toList ∧ val m.time "end_time" = some "  00:00:00".toList ∧
      val m.driver "T_stop_model" = some (num (24 * 60 * n)) ∧
      val m.met "start_month" = some (monthName a.month) ∧ val m.met "start_day" = some (num a.day) ∧
      val m.met "start_hour" = some "0.0".toList ∧
      val m.met "GMT_offset" = some (if a = ⟨2012, 6, 1⟩ then "-5".toList else "3".toList) ∧
      val m.driver "dt" = some o.chanDt ∧ val m.kinematic "dt" = some o.chanDt ∧
      val m.diffusive "dt" = some o.chanDt := by
  obtain ⟨s1, s2, dir, h1, h2, -, h4⟩ := prepare_ok h
  obtain ⟨-, t, dt, typ, file, ngen, ht, -, -, -, ht', hd, hm, hk, hf, -⟩ := cfgFiles_ok h4
  have k : Known s2 := by
    intro t ht
    rw [setMet_time h2] at ht
    exact setTime_known (after_known os) h1 t ht
  simp only [val, ht', hd, hm, hk, hf, metEntries, chanEntries]
  rcases k t ht with rfl | rfl | rfl
  · refine ⟨⟨2015, 10, 1⟩, ⟨2018, 10, 1⟩, 366 + (365 + 365), by decide +kernel, later1,
      congrArg some (?_ : period1.startDate = _), congrArg some (?_ : period1.endDate = _), rfl, rfl,
      congrArg some (?_ : period1.stop = _), congrArg some (?_ : period1.month = _), congrArg some (?_ : period1.day = _),
      rfl, rfl, rfl, rfl, rfl⟩ <;> decide +kernel
  · refine ⟨⟨2005, 1, 1⟩, ⟨2015, 1, 1⟩, 1461 + (1461 + (365 + 365)), by decide +kernel, later2,
      congrArg some (?_ : period2.startDate = _), congrArg some (?_ : period2.endDate = _), rfl, rfl,
      congrArg some (?_ : period2.stop = _), congrArg some (?_ : period2.month = _), congrArg some (?_ : period2.day = _),
      rfl, rfl, rfl, rfl, rfl⟩ <;> decide +kernel
  · refine ⟨⟨2012, 6, 1⟩, ⟨2012, 7, 1⟩, 30, by decide +kernel, by decide +kernel,
      congrArg some (?_ : period3.startDate = _), congrArg some (?_ : period3.endDate = _), rfl, rfl,
      congrArg some (?_ : period3.stop = _), congrArg some (?_ : period3.month = _), congrArg some (?_ : period3.day = _),
      rfl, rfl, rfl, rfl, rfl⟩ <;> decide +kernel

/-- Options for examples: a catchment of the NextGen framework. -/
def opts0 : Opts where
  nextgen := true
  eastAfrica := false
  ngenCsv := some true
  testRain := false
  chirps := false
  chirps2 := false
  gldas := false
  gpm := false
  noMet := true
  site := "cat-84".toList
  case := "Test1".toList
  testDir := "/d/".toList
  outputDir := "/out/".toList
  dataDir := "/data/".toList
  chanDt := "5.0".toList

/-- Options for examples: a basin in Kenya with CHIRPS rainfall. -/
def optsC : Opts :=
  { opts0 with nextgen := false, eastAfrica := true, ngenCsv := some false, chirps := true, noMet := false,
               site := "Tana_120sec".toList }

/-- The dates and the stop time of what a call has made. -/
def madeTimes (r : Except String (Option Made)) : Option (Option Str × Option Str × Option Str) :=
  match r with
  | .ok (some m) => some (val m.time "start_date", val m.time "end_date", val m.driver "T_stop_model")
  | _ => none

example : madeTimes (result optsC [opts0]) =
    some (some "2015-10-01".toList, some "2018-10-01".toList, some "1578240".toList) := by decide +kernel

/-- What is made, if each step succeeds. -/
theorem prepare_of {o : Opts} {s s1 s2 : State} {t : TimeInfo} {dt r typ file ngen : Str}
    (hn : o.nextgen = true ∨ o.eastAfrica = true) (h1 : setTime o s = .ok s1) (h2 : setMet o s1 = .ok s2)
    (hc : o.case = "Test1".toList) (ht : s2.time = some t) (hd : s2.metDt = some dt) (hr : s2.rainType = some r)
    (hf : metFile o s2 = .ok (typ, file, ngen)) :
    ∃ m, (prepare o s).2 = .ok (some m) ∧
      val m.met "P" = some file ∧ val m.met "dt" = some dt ∧ val m.met "P_type" = some typ ∧
      val m.met "NGEN_CSV" = some ngen ∧ val m.time "start_date" = some t.startDate ∧
      val m.time "end_date" = some t.endDate ∧ val m.kinematic "save_grid_dt" = some dt ∧
      val m.diffusive "save_pixels_dt" = some dt ∧
      (o.noMet = false →
        m.dir = basinDir o ++ (o.case ++ "_".toList) ++ (t.range ++ "_".toList ++ r) ++ "_cfg/".toList) := by
  have hd' : ∃ dir, cfgDir o s2 = .ok dir ∧ (o.noMet = false →
      dir = basinDir o ++ (o.case ++ "_".toList) ++ (t.range ++ "_".toList ++ r) ++ "_cfg/".toList) := by
    unfold cfgDir
    rw [ht, hr]
    split
    · rename_i h
      exact ⟨_, rfl, fun h' => by rw [h] at h'; cases h'⟩
    · exact ⟨_, rfl, fun _ => rfl⟩
  obtain ⟨dir, hdir, hdir'⟩ := hd'
  have hm : ∃ m, cfgFiles o s2 dir = .ok m := by
    unfold cfgFiles
    rw [if_neg (not_not.mpr hc), ht, hd, hf]
    exact ⟨_, rfl⟩
  obtain ⟨m, hm⟩ := hm
  obtain ⟨-, t', dt', typ', file', ngen', ht', hd', hf', e0, e1, -, e3, e4, e5, -⟩ := cfgFiles_ok hm
  rw [ht] at ht'
  rw [hd] at hd'
  rw [hf] at hf'
  cases ht'
  cases hd'
  cases hf'
  refine ⟨m, ?_, by rw [e3]; rfl, by rw [e3]; rfl, by rw [e3]; rfl, by rw [e3]; rfl, by rw [e1]; rfl, by rw [e1]; rfl,
    by rw [e4]; rfl, by rw [e5]; rfl, fun h => by rw [e0, hdir' h]⟩
  unfold prepare
  rw [if_neg (by rcases hn with h | h <;> simp [h]), h1]
  dsimp only
  rw [h2]
  dsimp only
  rw [hdir]
  dsimp only
  rw [hm]

/-- **C281**, part that holds.  If the options choose one source of rainfall among the NextGen file, CHIRPS, CHIRPS over
ten years and GLDAS, and the case prefix is that of the templates, then the configuration files are made, whatever was
prepared before; the rainfall of the meteorology component is then the file of that source for the site and its
period, with its time step and its type, the rainfall is written to the screen and to files at that step, the run
covers the period, and the directory is named for both if meteorology is prepared.  Missing: GPM, test rainfall, and options that choose more than one source. -/
theorem C281_rain_partial (o : Opts) (os : List Opts) (p : Product) (hp : Only o p) (hc : o.case = "Test1".toList) :
    ∃ m, result o os = .ok (some m) ∧
      val m.met "P" = some (p.file (site := o.site)) ∧
      val m.met "dt" = some (num p.step ++ ".0".toList) ∧
      val m.met "P_type" = some (if p = .ngen then "Time_Series".toList else "Grid_Sequence".toList) ∧
      val m.met "NGEN_CSV" = some (if p = .ngen then "Yes".toList else "No".toList) ∧
      val m.time "start_date" = some (iso p.period.1) ∧ val m.time "end_date" = some (iso p.period.2) ∧
      val m.kinematic "save_grid_dt" = some (num p.step ++ ".0".toList) ∧
      val m.diffusive "save_pixels_dt" = some (num p.step ++ ".0".toList) ∧
      (o.noMet = false →
        m.dir = o.testDir ++ o.site ++ "/".toList ++ (o.case ++ "_".toList) ++ (p.range ++ "_".toList ++ p.name) ++
          "_cfg/".toList) := by
  generalize hs : after os = s
  unfold result
  rw [hs]
  obtain ⟨h1, h2, h3, h4, h5, h6, h7⟩ := hp
  have r1 : Product.range .ngen = period3.range := by decide +kernel
  have r2 : Product.range .chirps = period1.range := by decide +kernel
  have r3 : Product.range .chirps2 = period2.range := by decide +kernel
  have r4 : Product.range .gldas = period1.range := by decide +kernel
  cases p with
  | ngen =>
    have n1 : num (1 * 3600) ++ ".0".toList = "3600.0".toList := by decide +kernel
    have d1 : iso ⟨2012, 6, 1⟩ = period3.startDate := by decide +kernel
    have d2 : iso ⟨2012, 7, 1⟩ = period3.endDate := by decide +kernel
    simp only [reduceCtorEq, decide_true, decide_false, if_true, if_false] at h3 h4 h5 h6 h7
    obtain ⟨m, hm, e4, e5, e6, e7, e8, e9, e10, e11, e12⟩ := prepare_of (o := o) (s := s) (t := period3)
      (s1 := { s with time := some period3 })
      (s2 := { time := some period3, srcDir := some none, rainRts := some none,
               rainCsv := some (o.site ++ "_".toList ++ period3.range ++ ".csv".toList),
               metDt := some "3600.0".toList, rainType := some "NGEN_CSV".toList })
      (Or.inl h7)
      (by simp only [setTime, h2, h3, h4, h5, h6, h7, Bool.or_false, Bool.or_true, Bool.true_or, Bool.false_eq_true, if_true,
            if_false, ite_self])
      (by simp only [setMet, metNgen, metTest, metProduct, h1, h2, h3, h4, h5, h6, if_true, if_false, Bool.false_eq_true,
            reduceCtorEq, Option.some.injEq])
      hc rfl rfl rfl (by simp only [metFile, h1, h3, if_true]; rfl)
    refine ⟨m, hm, ?_, e5.trans (congrArg some n1.symm), e6, e7, e8.trans (congrArg some d1.symm),
      e9.trans (congrArg some d2.symm), e10.trans (congrArg some n1.symm), e11.trans (congrArg some n1.symm),
      fun h => by rw [r1]; exact e12 h⟩
    change val m.met "P" = some (o.site ++ "_".toList ++ Product.range .ngen ++ ".csv".toList)
    rw [r1]
    exact e4
  | chirps =>
    have n1 : num (6 * 3600) ++ ".0".toList = "21600.0".toList := by decide +kernel
    have d1 : iso ⟨2015, 10, 1⟩ = period1.startDate := by decide +kernel
    have d2 : iso ⟨2018, 10, 1⟩ = period1.endDate := by decide +kernel
    simp only [reduceCtorEq, decide_true, decide_false, if_true, if_false] at h3 h4 h5 h6 h7
    obtain ⟨m, hm, e4, e5, e6, e7, e8, e9, e10, e11, e12⟩ := prepare_of (o := o) (s := s) (t := period1)
      (s1 := { s with time := some period1 })
      (s2 := { s with time := some period1, srcDir := some (some (o.dataDir ++ "CHIRPS_Rain_Africa_6hr_2015-10_to_2018-10_onedir/".toList)),
                      rainRts := some (some ("CHIRPS".toList ++ "_Rain_".toList ++ o.site ++
                        ("_".toList ++ period1.range ++ ".rts".toList))),
                      metDt := some "21600.0".toList, rainType := some "CHIRPS".toList })
      (Or.inr h7)
      (by simp only [setTime, h2, h3, h4, h5, h6, h7, Bool.or_false, Bool.or_true, Bool.true_or, Bool.false_eq_true, if_true,
            if_false, ite_self])
      (by simp only [setMet, metNgen, metTest, metProduct, h1, h2, h3, h4, h5, h6, if_true, if_false, Bool.false_eq_true,
            reduceCtorEq, Option.some.injEq])
      hc rfl rfl rfl (by simp only [metFile, h1, h3, if_false, Option.some.injEq, Bool.false_eq_true]; rfl)
    refine ⟨m, hm, ?_, e5.trans (congrArg some n1.symm), e6, e7, e8.trans (congrArg some d1.symm),
      e9.trans (congrArg some d2.symm), e10.trans (congrArg some n1.symm), e11.trans (congrArg some n1.symm),
      fun h => by rw [r2]; exact e12 h⟩
    change val m.met "P" = some ("CHIRPS_Rain_".toList ++ o.site ++ "_".toList ++ Product.range .chirps ++ ".rts".toList)
    rw [r2]
    exact e4.trans (congrArg some (by simp only [List.append_assoc]; rfl))
  | chirps2 =>
    have n1 : num (6 * 3600) ++ ".0".toList = "21600.0".toList := by decide +kernel
    have d1 : iso ⟨2005, 1, 1⟩ = period2.startDate := by decide +kernel
    have d2 : iso ⟨2015, 1, 1⟩ = period2.endDate := by decide +kernel
    simp only [reduceCtorEq, decide_true, decide_false, if_true, if_false] at h3 h4 h5 h6 h7
    obtain ⟨m, hm, e4, e5, e6, e7, e8, e9, e10, e11, e12⟩ := prepare_of (o := o) (s := s) (t := period2)
      (s1 := { s with time := some period2 })
      (s2 := { s with time := some period2, srcDir := some (some (o.dataDir ++ "CHIRPS_Rain_Africa_6hr_2005-01_to_2015-01_onedir/".toList)),
                      rainRts := some (some ("CHIRPS".toList ++ "_Rain_".toList ++ o.site ++
                        ("_".toList ++ period2.range ++ ".rts".toList))),
                      metDt := some "21600.0".toList, rainType := some "CHIRPS".toList })
      (Or.inr h7)
      (by simp only [setTime, h2, h3, h4, h5, h6, h7, Bool.or_false, Bool.or_true, Bool.true_or, Bool.false_eq_true, if_true,
            if_false, ite_self])
      (by simp only [setMet, metNgen, metTest, metProduct, h1, h2, h3, h4, h5, h6, if_true, if_false, Bool.false_eq_true,
            reduceCtorEq, Option.some.injEq])
      hc rfl rfl rfl (by simp only [metFile, h1, h3, if_false, Option.some.injEq, Bool.false_eq_true]; rfl)
    refine ⟨m, hm, ?_, e5.trans (congrArg some n1.symm), e6, e7, e8.trans (congrArg some d1.symm),
      e9.trans (congrArg some d2.symm), e10.trans (congrArg some n1.symm), e11.trans (congrArg some n1.symm),
      fun h => by rw [r3]; exact e12 h⟩
    change val m.met "P" = some ("CHIRPS_Rain_".toList ++ o.site ++ "_".toList ++ Product.range .chirps2 ++ ".rts".toList)
    rw [r3]
    exact e4.trans (congrArg some (by simp only [List.append_assoc]; rfl))
  | gldas =>
    have n1 : num (3 * 3600) ++ ".0".toList = "10800.0".toList := by decide +kernel
    have d1 : iso ⟨2015, 10, 1⟩ = period1.startDate := by decide +kernel
    have d2 : iso ⟨2018, 10, 1⟩ = period1.endDate := by decide +kernel
    simp only [reduceCtorEq, decide_true, decide_false, if_true, if_false] at h3 h4 h5 h6 h7
    obtain ⟨m, hm, e4, e5, e6, e7, e8, e9, e10, e11, e12⟩ := prepare_of (o := o) (s := s) (t := period1)
      (s1 := { s with time := some period1 })
      (s2 := { s with time := some period1, srcDir := some (some (o.dataDir ++ "GLDAS_Rain_Baro_2015-10_to_2018-10/".toList)),
                      rainRts := some (some ("GLDAS".toList ++ "_Rain_".toList ++ o.site ++
                        ("_".toList ++ period1.range ++ ".rts".toList))),
                      metDt := some "10800.0".toList, rainType := some "GLDAS".toList })
      (Or.inr h7)
      (by simp only [setTime, h2, h3, h4, h5, h6, h7, Bool.or_false, Bool.or_true, Bool.true_or, Bool.false_eq_true, if_true,
            if_false, ite_self])
      (by simp only [setMet, metNgen, metTest, metProduct, h1, h2, h3, h4, h5, h6, if_true, if_false, Bool.false_eq_true,
            reduceCtorEq, Option.some.injEq])
      hc rfl rfl rfl (by simp only [metFile, h1, h3, if_false, Option.some.injEq, Bool.false_eq_true]; rfl)
    refine ⟨m, hm, ?_, e5.trans (congrArg some n1.symm), e6, e7, e8.trans (congrArg some d1.symm),
      e9.trans (congrArg some d2.symm), e10.trans (congrArg some n1.symm), e11.trans (congrArg some n1.symm),
      fun h => by rw [r4]; exact e12 h⟩
    change val m.met "P" = some ("GLDAS_Rain_".toList ++ o.site ++ "_".toList ++ Product.range .gldas ++ ".rts".toList)
    rw [r4]
    exact e4.trans (congrArg some (by simp only [List.append_assoc]; rfl))

example : Only opts0 .ngen ∧ Only optsC .chirps := by
  simp [Only, opts0, optsC]

/-- The three numbers of what a call has made that a reader needs for the rainfall: time step, type and file. -/
def madeRain (r : Except String (Option Made)) : Option (Option Str × Option Str × Option Str × Option Str) :=
  match r with
  | .ok (some m) => some (val m.met "dt", val m.met "P_type", val m.met "P", val m.met "NGEN_CSV")
  | _ => none

/-- **C281** fails in the code: with GPM rainfall nothing is ever made, whatever else is chosen. -/
theorem C281_gpm_violated (o : Opts) (os : List Opts) (h : o.gpm = true) (m : Made) :
    result o os ≠ .ok (some m) := by
  intro hm
  obtain ⟨s1, s2, dir, -, h2, -⟩ := prepare_ok hm
  unfold setMet at h2
  split at h2
  · cases h2
  · rw [if_pos h] at h2
    cases h2

/-- **C281** fails in the code: if test rainfall is the only source that is chosen, a new object makes nothing, because
no period is set for it. -/
theorem C281_test_violated (o : Opts) (h1 : o.ngenCsv ≠ some true) (h2 : o.chirps = false) (h3 : o.chirps2 = false)
    (h4 : o.gldas = false) (m : Made) : result o [] ≠ .ok (some m) := by
  intro hm
  by_cases hg : o.gpm = true
  · exact C281_gpm_violated o [] hg m hm
  · have hg' : o.gpm = false := by simpa using hg
    obtain ⟨s1, s2, dir, e1, e2, -⟩ := prepare_ok hm
    have : s1 = fresh := by
      unfold setTime at e1
      rcases hn : o.ngenCsv with _ | _ | _
      · simp [hn] at e1
      · simp [hn, h2, h3, h4, hg', after] at e1
        exact e1.symm
      · exact absurd hn h1
    subst this
    simp [setMet, fresh] at e2

/-- **C281** fails in the code: if CHIRPS is chosen as well, the hourly values of the NextGen file are used with a time
step of six hours, and the test rainfall is used with the format of the NextGen file. -/
theorem C281_mixed_violated :
    madeRain (result { opts0 with chirps := true } []) =
      some (some "21600.0".toList, some "Time_Series".toList, some "cat-84_2012-06_to_2012-07.csv".toList,
        some "Yes".toList) ∧
    madeRain (result { opts0 with testRain := true } []) =
      some (some "3600.0".toList, some "Time_Series".toList, some "Test1_rain_rates.txt".toList, some "Yes".toList) := by
  constructor <;> decide +kernel

/-- **C281** fails in the code: an object that was used before makes configuration files also if no source of rainfall is
chosen, with a file named None. -/
theorem C281_leftover_violated :
    madeRain (result { opts0 with ngenCsv := some false } [opts0]) =
      some (some "3600.0".toList, some "Grid_Sequence".toList, some "None".toList, some "No".toList) := by
  decide +kernel

/-! ## Basins -/

/-- **C282**, part that holds.  For each of the nine basins that are known by name, whatever basins were prepared before
with the same object: the cells have the size that the name states, the bounding box is not empty and lies on the globe,
the widths, depths, areas and discharges are positive, and all this is the same as with a new object.  For a basin that
drains to the ocean or to a lake by its entry, this too is as with a new object.  Missing: the other five basins keep the
option of the basin before, and an unknown basin keeps everything. -/
theorem C282_basin_partial (before : List String) (site : String) (sec : ℕ) (h : (site, sec) ∈ sites) :
    let b := basinAfter (site :: before)
    let b0 := basinAfter [site]
    b.res = some ((sec : ℚ), (sec : ℚ)) ∧
    (∃ x0 y0 x1 y1 : ℚ, b.bounds = some (x0, y0, x1, y1) ∧ -180 ≤ x0 ∧ x0 < x1 ∧ x1 ≤ 180 ∧ -90 ≤ y0 ∧ y0 < y1 ∧ y1 ≤ 90) ∧
    0 < b.width ∧ 0 < b.area ∧ 0 < b.base ∧ 0 < b.bankfull ∧
    b.bounds = b0.bounds ∧ b.width = b0.width ∧ b.area = b0.area ∧ b.base = b0.base ∧ b.bankfull = b0.bankfull ∧
    (site ∈ ["Tana_120sec", "Galana_120sec"] → b.ocean = true) ∧
    (site ∈ ["Awash_120sec", "Omo_120sec"] → b.ocean = false) := by
  dsimp only [basinAfter]
  generalize basinAfter before = old
  clear before
  simp only [sites, List.mem_cons, Prod.mk.injEq, List.not_mem_nil, or_false] at h
  rcases h with ⟨rfl, rfl⟩ | ⟨rfl, rfl⟩ | ⟨rfl, rfl⟩ | ⟨rfl, rfl⟩ | ⟨rfl, rfl⟩ | ⟨rfl, rfl⟩ | ⟨rfl, rfl⟩ | ⟨rfl, rfl⟩ | ⟨rfl, rfl⟩ <;>
  · simp only [basinInfo, String.reduceEq, if_true, if_false, setBasin]
    refine ⟨by norm_num, ⟨_, _, _, _, rfl, ?_, ?_, ?_, ?_, ?_, ?_⟩, ?_, ?_, ?_, ?_, ?_, ?_, ?_, ?_, ?_, ?_, ?_⟩ <;>
      first | trivial | (norm_num; done) | simp | decide

/-- **C282** fails in the code: the Baro River is prepared as a basin that drains to the ocean if the Tana River was
prepared before with the same object, and not otherwise; so its negative elevations are set to zero and its cells at sea
level get no flow direction. -/
theorem C282_history_violated :
    (basinAfter ["Baro-Gam_60sec", "Tana_120sec"]).ocean = true ∧ (basinAfter ["Baro-Gam_60sec"]).ocean = false := by
  decide +kernel

/-- **C282** fails in the code: a basin that is not known by name is prepared without an error with the width, area and
discharge of the basin before. -/
theorem C282_unknown_violated (before : List String) (site : String) (h : ∀ sec, (site, sec) ∉ sites) :
    basinAfter (site :: before) = basinAfter before := by
  have h' : ∀ p ∈ sites, site ≠ p.1 := fun p hp e => h p.2 (by rw [e]; exact hp)
  simp only [sites, List.forall_mem_cons] at h'
  obtain ⟨a1, a2, a3, a4, a5, a6, a7, a8, a9, -⟩ := h'
  simp only [basinAfter, basinInfo, a1, a2, a3, a4, a5, a6, a7, a8, a9, if_false]

example : (basinAfter ["cat-84", "Tana_120sec"]).width = 120 := by decide +kernel

/-! ## Names of files and directories -/

/-- **C283.**  The fourteen files that are made for a site have different names. -/
theorem C283_files_distinct (o : Opts) : (outputFiles o).Nodup := by
  have key : ∀ (p : Str) (l : List Str), l.Nodup → (l.map (p ++ ·)).Nodup := by
    intro p l hl
    exact List.Nodup.map (fun a b h => List.append_cancel_left h) hl
  have e : outputFiles o = (["_rawDEM.tif".toList, "_rawDEM.rtg".toList, "_DEM.rtg".toList, ".rti".toList,
      "_flow.rtg".toList, "_d8-area.rtg".toList, "_slope.rtg".toList, "_aspect.rtg".toList, "_chan-w.rtg".toList,
      "_chan-n.rtg".toList, "_sinu.rtg".toList, "_d-bank.rtg".toList, "_d0.rtg".toList].map
        ((basinDir o ++ "__topo/".toList ++ o.site) ++ ·)) ++
      [basinDir o ++ "__met/".toList ++ o.case ++ "_rain_rates.txt".toList] := by
    simp only [outputFiles, List.map_cons, List.map_nil, List.cons_append, List.nil_append]
  rw [e, List.nodup_append]
  refine ⟨key _ _ (by decide +kernel), List.nodup_singleton _, ?_⟩
  intro a ha b hb hab
  rw [List.mem_singleton] at hb
  subst hb hab
  obtain ⟨x, -, hx⟩ := List.mem_map.mp ha
  simp only [List.append_assoc] at hx
  have := List.append_cancel_left hx
  simp at this

/-- **C283.**  Two sites, with names without a slash, have no file in common. -/
theorem C283_sites_apart (o o' : Opts) (ht : o.testDir = o'.testDir) (hs : '/' ∉ o.site) (hs' : '/' ∉ o'.site)
    (hne : o.site ≠ o'.site) : ∀ f ∈ outputFiles o, f ∉ outputFiles o' := by
  have pre : ∀ (q : Opts), ∀ f ∈ outputFiles q, ∃ r, f = q.testDir ++ (q.site ++ '/' :: r) := by
    intro q f hf
    simp only [outputFiles, basinDir, List.mem_cons, List.not_mem_nil, or_false] at hf
    rcases hf with h | h | h | h | h | h | h | h | h | h | h | h | h | h <;>
      exact ⟨_, by rw [h]; simp only [List.append_assoc]; rfl⟩
  have slash : ∀ (a b r r' : Str), '/' ∉ a → '/' ∉ b → a ++ '/' :: r = b ++ '/' :: r' → a = b := by
    intro a
    induction a with
    | nil =>
      intro b r r' _ hb h
      cases b with
      | nil => rfl
      | cons c b => simp at h; exact absurd (by rw [h.1]; simp) hb
    | cons c a ih =>
      intro b r r' ha hb h
      cases b with
      | nil => simp at h; exact absurd (by rw [h.1]; simp) ha
      | cons d b =>
        simp only [List.cons_append, List.cons.injEq] at h
        rw [h.1, ih b r r' (fun m => ha (List.mem_cons_of_mem _ m)) (fun m => hb (List.mem_cons_of_mem _ m)) h.2]
  intro f hf hf'
  obtain ⟨r, hr⟩ := pre o f hf
  obtain ⟨r', hr'⟩ := pre o' f hf'
  rw [hr, ht] at hr'
  exact hne (slash _ _ _ _ hs hs' (List.append_cancel_left hr'))

/-- The directory of what a call has made. -/
def madeDir (r : Except String (Option Made)) : Option Str :=
  match r with
  | .ok (some m) => some m.dir
  | _ => none

theorem prepare_dir {o : Opts} {os : List Opts} {m : Made} (h : result o os = .ok (some m)) (hn : o.noMet = false) :
    ∃ t r, (t = period1 ∨ t = period2 ∨ t = period3) ∧ val m.time "start_date" = some t.startDate ∧
      m.dir = basinDir o ++ (o.case ++ "_".toList) ++ (t.range ++ "_".toList ++ r) ++ "_cfg/".toList := by
  obtain ⟨s1, s2, dir, h1, h2, h3, h4⟩ := prepare_ok h
  obtain ⟨-, t, dt, typ, file, ngen, ht, -, -, hd, ht', -⟩ := cfgFiles_ok h4
  have k : Known s2 := by
    intro t ht
    rw [setMet_time h2] at ht
    exact setTime_known (after_known os) h1 t ht
  unfold cfgDir at h3
  rw [hn, if_neg (by simp), ht] at h3
  rcases hr : s2.rainType with _ | r
  · rw [hr] at h3
    cases h3
  · rw [hr] at h3
    refine ⟨t, r, k t ht, by rw [ht']; rfl, ?_⟩
    rw [hd]
    simp only [Except.ok.injEq] at h3
    exact h3.symm

theorem range_inj : ∀ t ∈ [period1, period2, period3], ∀ t' ∈ [period1, period2, period3], t.range = t'.range → t = t' := by
  decide +kernel

theorem range_length : ∀ t ∈ [period1, period2, period3], t.range.length = 18 := by decide +kernel

/-- **C283**, part that holds.  Two calls for the same site that prepare the meteorology and cover different periods put
their configuration files into different directories. -/
theorem C283_dirs_partial (o o' : Opts) (os os' : List Opts) {m m' : Made} (h : result o os = .ok (some m))
    (h' : result o' os' = .ok (some m')) (hn : o.noMet = false) (hn' : o'.noMet = false)
    (ht : o.testDir = o'.testDir) (hs : o.site = o'.site)
    (hp : val m.time "start_date" ≠ val m'.time "start_date") : m.dir ≠ m'.dir := by
  obtain ⟨t, r, k, e, d⟩ := prepare_dir h hn
  obtain ⟨t', r', k', e', d'⟩ := prepare_dir h' hn'
  obtain ⟨_, _, _, _, _, _, h4⟩ := prepare_ok h
  obtain ⟨_, _, _, _, _, _, h4'⟩ := prepare_ok h'
  have c := (cfgFiles_ok h4).1
  have c' := (cfgFiles_ok h4').1
  intro hd
  rw [d, d', c, c'] at hd
  unfold basinDir at hd
  rw [ht, hs] at hd
  simp only [List.append_assoc] at hd
  have hd := List.append_cancel_left (List.append_cancel_left (List.append_cancel_left (List.append_cancel_left
    (List.append_cancel_left hd))))
  have l : t.range.length = t'.range.length := by
    rw [range_length t (by simp [k]), range_length t' (by simp [k'])]
  have hr := (List.append_inj hd l).1
  apply hp
  rw [e, e']
  rw [range_inj t (by simp [k]) t' (by simp [k']) hr]

/-- **C283**, part that holds.  Two calls for the same site that prepare the meteorology, each with one source of
rainfall, put their configuration files into different directories if the sources are different. -/
theorem C283_products_partial (o o' : Opts) (os os' : List Opts) (p p' : Product) (hp : Only o p) (hp' : Only o' p')
    (hne : p ≠ p') {m m' : Made} (h : result o os = .ok (some m)) (h' : result o' os' = .ok (some m'))
    (hn : o.noMet = false) (hn' : o'.noMet = false) (ht : o.testDir = o'.testDir) (hs : o.site = o'.site) :
    m.dir ≠ m'.dir := by
  obtain ⟨_, _, _, _, _, _, h4⟩ := prepare_ok h
  obtain ⟨_, _, _, _, _, _, h4'⟩ := prepare_ok h'
  have c := (cfgFiles_ok h4).1
  have c' := (cfgFiles_ok h4').1
  obtain ⟨m1, e1, -, -, -, -, -, -, -, -, d1⟩ := C281_rain_partial o os p hp c
  obtain ⟨m2, e2, -, -, -, -, -, -, -, -, d2⟩ := C281_rain_partial o' os' p' hp' c'
  rw [h] at e1
  rw [h'] at e2
  cases e1
  cases e2
  rw [d1 hn, d2 hn', ht, hs, c, c']
  intro hd
  simp only [List.append_assoc] at hd
  have hd := List.append_cancel_left (List.append_cancel_left (List.append_cancel_left (List.append_cancel_left
    (List.append_cancel_left hd))))
  have key : ∀ q ∈ [Product.ngen, .chirps, .chirps2, .gldas], ∀ q' ∈ [Product.ngen, .chirps, .chirps2, .gldas],
      q.range ++ ("_".toList ++ (q.name ++ "_cfg/".toList)) = q'.range ++ ("_".toList ++ (q'.name ++ "_cfg/".toList)) →
      q = q' := by
    decide +kernel
  exact hne (key p (by cases p <;> simp) p' (by cases p' <;> simp) hd)

/-- **C283** fails in the code with the default option, which does not prepare the meteorology: runs of one site with
different rainfall and different periods overwrite each other's configuration files. -/
theorem C283_dirs_violated :
    madeDir (result { optsC with noMet := true } []) =
      madeDir (result { optsC with noMet := true, chirps := false, chirps2 := true } []) ∧
    madeDir (result { optsC with noMet := true } []) ≠ none ∧
    madeTimes (result { optsC with noMet := true } []) ≠
      madeTimes (result { optsC with noMet := true, chirps := false, chirps2 := true } []) := by
  refine ⟨?_, ?_, ?_⟩ <;> decide +kernel

/-- **C283** fails in the code for the case prefix, which is to name the scenario: with any prefix other than that of the
shipped templates nothing is made. -/
theorem C283_case_violated (o : Opts) (os : List Opts) (h : o.case ≠ "Test1".toList) (m : Made) :
    result o os ≠ .ok (some m) := by
  intro hm
  obtain ⟨_, _, _, _, _, _, h4⟩ := prepare_ok hm
  exact h (cfgFiles_ok h4).1

example : madeDir (result optsC []) = some "/d/Tana_120sec/Test1_2015-10_to_2018-10_CHIRPS_cfg/".toList := by
  decide +kernel

end Plan
