import Verif.DisableModel
import Verif.RepoProps

/-!
# C220: what switched off components hand on (C219 is in `StartProps`)
-/

set_option autoImplicit false
set_option maxRecDepth 100000

namespace Disable

open Repo

/-! ## Specification -/

/-- The three channel methods. -/
def isChannels (c : Comp) : Bool :=
  [Comp.tf_channels_kin_wave, .tf_channels_diff_wave, .tf_channels_dynam_wave].elem c

/-- The variables a component does not have to offer when the framework asks for them. -/
def withheld (scalarP : Bool) (offp : Bool) (p : Comp) (v : Var) : Bool :=
  -- the eroding landscape never has its elevations to offer
  (decide (p = .erode_d8_global) && decide (v = .«land_surface__elevation»)) ||
  -- switched off channels have nothing to offer
  (offp && isChannels p) ||
  -- switched off valley glaciers have no ice thickness
  (offp && decide (p = .tf_ice_gc2d) && decide (v = .«glacier_ice__thickness»)) ||
  -- switched off meteorology has no latent heat flux and no totals, and rain and snow rates only
  -- if the precipitation is one number
  (offp && decide (p = .tf_meteorology) &&
    ([Var.«atmosphere_bottom_air_land_net-latent-heat__energy_flux»,
      .«atmosphere_water__domain_time_integral_of_precipitation_leq-volume_flux»,
      .«atmosphere_water__domain_time_integral_of_rainfall_volume_flux»,
      .«atmosphere_water__domain_time_integral_of_snowfall_leq-volume_flux»,
      .«atmosphere_water__domain_time_max_of_precipitation_leq-volume_flux»].elem v ||
     (!scalarP && [Var.«atmosphere_water__rainfall_volume_flux»,
      .«atmosphere_water__snowfall_leq-volume_flux»].elem v)))

/-- `v` goes from `p` to `u` in a model made of the components `l`. -/
def Exchanged (l : List Comp) (p u : Comp) (v : Var) : Prop :=
  p ∈ l ∧ u ∈ l ∧ v ∈ (decl p).outputs ∧ v ∈ (decl u).inputs

/-! ## Presence of the attributes -/

/-- Boolean form of "the value is there". -/
def isOk {α : Type} : Except String α → Bool
  | .ok _ => true
  | .error _ => false

theorem isOk_iff {α : Type} (x : Except String α) : isOk x = true ↔ ∃ a, x = .ok a := by
  cases x <;> simp [isOk]

theorem isOk_false {α : Type} (x : Except String α) : isOk x = false ↔ ∃ e, x = .error e := by
  cases x <;> simp [isOk]

theorem present_all : ([true, false].all fun sp => [true, false].all fun b => repoList.all fun p =>
    (decl p).outputs.all fun v => !(repoList.any fun u => (decl u).inputs.elem v) ||
      decide (v = .None) ||
      (isOk (valuePtr (if b then offAttrs sp p else onAttrs p) p v) == !withheld sp b p v)) = true := by
  decide +kernel

theorem present (sp : Bool) (off : Comp → Bool) {p u : Comp} {v : Var} (hp : v ∈ (decl p).outputs)
    (hu : v ∈ (decl u).inputs) (hv : v ≠ .None) :
    isOk (valuePtr (afterInit sp off p) p v) = !withheld sp (off p) p v := by
  have h1 := List.all_eq_true.1 present_all sp (by cases sp <;> simp)
  have h2 := List.all_eq_true.1 h1 (off p) (by cases off p <;> simp)
  have h3 := List.all_eq_true.1 (List.all_eq_true.1 h2 p (mem_repoList p)) v hp
  have h4 : (repoList.any fun u => (decl u).inputs.elem v) = true :=
    List.any_eq_true.2 ⟨u, mem_repoList u, List.elem_eq_true_of_mem hu⟩
  rw [h4, decide_eq_false hv] at h3
  simpa [afterInit] using h3

theorem connectLive_ok (sp : Bool) (off : Comp → Bool) {p u : Comp} {v : Var}
    (hp : v ∈ (decl p).outputs) (hu : v ∈ (decl u).inputs) (hv : v ≠ .None)
    (hw : withheld sp (off p) p v = false) : connectLive sp off p u v = .ok .plain := by
  have h := present sp off hp hu hv
  rw [hw] at h
  obtain ⟨k, hk⟩ := (isOk_iff _).1 h
  unfold connectLive
  rw [hk]
  exact (C96_units_agree hp hu hv).2.1

theorem connectLive_error (sp : Bool) (off : Comp → Bool) {p u : Comp} {v : Var}
    (hp : v ∈ (decl p).outputs) (hu : v ∈ (decl u).inputs) (hv : v ≠ .None)
    (hw : withheld sp (off p) p v = true) : ∃ e, connectLive sp off p u v = .error e := by
  have h := present sp off hp hu hv
  rw [hw] at h
  obtain ⟨e, he⟩ := (isOk_false _).1 h
  exact ⟨e, by unfold connectLive; rw [he]; rfl⟩

theorem mem_pairs {l : List Comp} {x : Comp × Comp × Var} :
    x ∈ l.flatMap (fun p => (decl p).outputs.flatMap
      (fun v => (usersOf l v).map (fun u => (p, u, v)))) ↔ Exchanged l x.1 x.2.1 x.2.2 := by
  obtain ⟨p, u, v⟩ := x
  simp [Exchanged, usersOf, List.mem_flatMap]
  tauto

/-! ## C220: what a switched off component hands on -/

/-- Variables that are not amounts, fluxes or totals of the process: properties of air, water and
snow, temperatures, humidity and the elevation of the land surface. -/
def property : List Var :=
  [.«water-liquid__mass-per-volume_density», .«atmosphere_bottom_air__mass-per-volume_density»,
   .«atmosphere_bottom_air__mass-specific_isobaric_heat_capacity»,
   .«atmosphere_bottom_air__temperature», .«land_surface__temperature»,
   .«atmosphere_bottom_air_water-vapor__relative_saturation»,
   .«snowpack__z_mean_of_mass-per-volume_density», .«land_surface__elevation»]

theorem zero_all : ([true, false].all fun sp => repoList.all fun p =>
    (decl p).outputs.all fun v => !(repoList.any fun u => (decl u).inputs.elem v) ||
      decide (v = .None) || property.elem v || withheld sp true p v ||
      (match valuePtr (offAttrs sp p) p v with | .ok .zero => true | _ => false)) = true := by
  decide +kernel

theorem iterate_off (n : ℕ) (s : List (Attr × Kind)) : updateOff^[n] s = s := by
  induction n with
  | zero => rfl
  | succ n ih => rw [Function.iterate_succ_apply', ih]; rfl

/-- **C220.** Every depth, flux and total that a switched off component hands to another one is
zero, at the start and after any number of updates. -/
theorem C220_off_is_zero (sp : Bool) (off : Comp → Bool) {p u : Comp} {v : Var}
    (hp : v ∈ (decl p).outputs) (hu : v ∈ (decl u).inputs) (hv : v ≠ .None)
    (ho : off p = true) (hpr : v ∉ property) (hw : withheld sp true p v = false) (n : ℕ) :
    readAfter sp off n p v = .ok .zero := by
  have h1 := List.all_eq_true.1 zero_all sp (by cases sp <;> simp)
  have h3 := List.all_eq_true.1 (List.all_eq_true.1 h1 p (mem_repoList p)) v hp
  have h4 : (repoList.any fun u => (decl u).inputs.elem v) = true :=
    List.any_eq_true.2 ⟨u, mem_repoList u, List.elem_eq_true_of_mem hu⟩
  have h5 : property.elem v = false := by
    cases h : property.elem v with
    | false => rfl
    | true => exact absurd (List.mem_of_elem_eq_true h) hpr
  rw [h4, decide_eq_false hv, h5, hw] at h3
  simp only [Bool.not_true, Bool.or_self, Bool.false_or] at h3
  unfold readAfter
  rw [iterate_off]
  simp only [afterInit, ho, if_true]
  split at h3
  · assumption
  · cases h3

/-- No attribute of an enabled component is one of the zeros of a switched off one. -/
theorem on_computed : (repoList.all fun p => (decl p).outputs.all fun v =>
    match valuePtr (onAttrs p) p v with | .ok .zero => false | _ => true) = true := by
  decide +kernel

theorem rateRead_on (sp : Bool) (off : Comp → Bool) (n : ℕ) {p : Comp} {v : Var} (x : ℝ)
    (hp : v ∈ (decl p).outputs) (ho : off p = false) : rateRead sp off n p v x = x := by
  have h := List.all_eq_true.1 (List.all_eq_true.1 on_computed p (mem_repoList p)) v hp
  unfold rateRead readAfter
  rw [iterate_off]
  simp only [afterInit, ho, Bool.false_eq_true, if_false]
  split at h
  · cases h
  · split
    · exact absurd ‹_› (by assumption)
    · rfl

theorem rateRead_off (sp : Bool) (off : Comp → Bool) (n : ℕ) {p : Comp} {v : Var} (x : ℝ)
    (hp : v ∈ (decl p).outputs) (ho : off p = true)
    (hf : v ∈ [Var.«snowpack__melt_volume_flux», .«glacier_ice__melt_volume_flux»,
      .«land_surface_water__baseflow_volume_flux», .«soil_surface_water__infiltration_volume_flux»]) :
    rateRead sp off n p v x = 0 := by
  have hq : ([true, false].all fun sp => repoList.all fun p =>
      [Var.«snowpack__melt_volume_flux», .«glacier_ice__melt_volume_flux»,
      .«land_surface_water__baseflow_volume_flux», .«soil_surface_water__infiltration_volume_flux»].all
      fun v => !(decl p).outputs.elem v || (!withheld sp true p v && !property.elem v &&
        (decl .tf_channels_kin_wave).inputs.elem v && !decide (v = .None))) = true := by
    decide +kernel
  have h1 := List.all_eq_true.1 (List.all_eq_true.1 (List.all_eq_true.1 hq sp (by cases sp <;> simp))
    p (mem_repoList p)) v hf
  rw [List.elem_eq_true_of_mem hp] at h1
  simp only [Bool.not_true, Bool.false_or, Bool.and_eq_true, Bool.not_eq_true',
    decide_eq_false_iff_not] at h1
  unfold rateRead
  rw [C220_off_is_zero sp off hp (List.mem_of_elem_eq_true h1.1.2) h1.2 ho
    (fun h => by rw [List.elem_eq_true_of_mem h] at h1; simp at h1) h1.1.1.1 n]

theorem rateRead_eq (sp : Bool) (off : Comp → Bool) (n : ℕ) {p : Comp} {v : Var} (x : ℝ)
    (hp : v ∈ (decl p).outputs)
    (hf : v ∈ [Var.«snowpack__melt_volume_flux», .«glacier_ice__melt_volume_flux»,
      .«land_surface_water__baseflow_volume_flux», .«soil_surface_water__infiltration_volume_flux»]) :
    rateRead sp off n p v x = if off p then 0 else x := by
  cases ho : off p with
  | true => rw [rateRead_off sp off n x hp ho hf]; rfl
  | false => rw [rateRead_on sp off n x hp ho]; rfl

/-- The same for the runoff of the channel component: with `sm`, `im`, `gw`, `inf` the providers of
snow melt, ice melt, baseflow and infiltration, the runoff of a cell is that of the enabled ones
alone. -/
theorem C220_runoff {ny nx : ℕ} (sp : Bool) (off : Comp → Bool) (n : ℕ) {sm im gw inf : Comp}
    (hsm : Var.«snowpack__melt_volume_flux» ∈ (decl sm).outputs)
    (him : Var.«glacier_ice__melt_volume_flux» ∈ (decl im).outputs)
    (hgw : Var.«land_surface_water__baseflow_volume_flux» ∈ (decl gw).outputs)
    (hin : Var.«soil_surface_water__infiltration_volume_flux» ∈ (decl inf).outputs)
    (p : Chan.Params ny nx) (i : Chan.Inp ny nx) (s : Chan.St ny nx) (c : D8.Cell ny nx) :
    Chan.excessR p
      { P := i.P
        SM := fun c => rateRead sp off n sm .«snowpack__melt_volume_flux» (i.SM c)
        GW := fun c => rateRead sp off n gw .«land_surface_water__baseflow_volume_flux» (i.GW c)
        MR := fun c => rateRead sp off n im .«glacier_ice__melt_volume_flux» (i.MR c)
        IN := fun c => rateRead sp off n inf .«soil_surface_water__infiltration_volume_flux» (i.IN c)
        ET := i.ET } s c =
    (i.P c + (if off sm then 0 else i.SM c) + (if off gw then 0 else i.GW c)
      + (if off im then 0 else i.MR c)) -
    (Chan.actualET p i s c + (if off inf then 0 else i.IN c)) := by
  simp only [Chan.excessR]
  rw [rateRead_eq sp off n _ hsm (by simp), rateRead_eq sp off n _ hgw (by simp),
    rateRead_eq sp off n _ him (by simp), rateRead_eq sp off n _ hin (by simp)]
  rfl

/-- Snow and groundwater of the whole model are off, the ice and the infiltration are on. -/
example {ny nx : ℕ} (p : Chan.Params ny nx) (i : Chan.Inp ny nx) (s : Chan.St ny nx)
    (c : D8.Cell ny nx) (n : ℕ) :
    let off : Comp → Bool := fun x => decide (x = .tf_snow_degree_day ∨ x = .tf_satzone_darcy_layers)
    Chan.excessR p
      { P := i.P
        SM := fun c => rateRead true off n .tf_snow_degree_day .«snowpack__melt_volume_flux» (i.SM c)
        GW := fun c => rateRead true off n .tf_satzone_darcy_layers
          .«land_surface_water__baseflow_volume_flux» (i.GW c)
        MR := fun c => rateRead true off n .tf_ice_gc2d .«glacier_ice__melt_volume_flux» (i.MR c)
        IN := fun c => rateRead true off n .tf_infil_green_ampt
          .«soil_surface_water__infiltration_volume_flux» (i.IN c)
        ET := i.ET } s c =
      (i.P c + i.MR c) - (Chan.actualET p i s c + i.IN c) := by
  intro off
  rw [C220_runoff true off n (by decide +kernel) (by decide +kernel) (by decide +kernel)
    (by decide +kernel)]
  simp [off]

end Disable
