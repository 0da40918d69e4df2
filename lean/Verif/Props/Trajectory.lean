import Verif.Props.Solver
import Verif.Props.Drives
import Verif.Props.Fluid
import Verif.Spec.Trajectory
import Mathlib.Analysis.Calculus.MeanValue
import Mathlib.MeasureTheory.Integral.IntervalIntegral.FundThmCalculus

/-! # C55, C56: conservation along exact trajectories

These compose the fluid model, the drive and the solver: along any exact solution of the equations the run
sets up, gas mass is constant and energy changes only by work and heat. -/

namespace Sett

open Spec state_equations

/-- Both drives of the crate are exact (C11, C13). -/
theorem exactDrive_sinusoidal (d : ws.SinusoidalDrive ℝ) : ExactDrive d.toWorkingSpaces :=
  fun _ t => ws.C11_sinusoidal_deriv d t

theorem exactDrive_rhombic (d : ws.RhombicDrive ℝ) (hg : ws.Feasible d.geometry)
    (hD : d.geometry.D_p ≠ 0) : ExactDrive d.toWorkingSpaces :=
  fun _ t => ws.C13_rhombic_deriv d hg hD t

section curves

variable {n : GasName} {T P : ℝ → ℝ} {T' P' t : ℝ} {S : Set ℝ}

theorem dens_curve (hT : HasDerivWithinAt T T' S t) (hP : HasDerivWithinAt P P' S t) (h0 : T t ≠ 0) :
    HasDerivWithinAt (fun t => (IdealGas.new n : IdealGas ℝ).dens (T t) (P t))
      ((IdealGas.new n : IdealGas ℝ).dd_dP_T (T t) (P t) * P'
        + (IdealGas.new n : IdealGas ℝ).dd_dT_P (T t) (P t) * T') S t := by
  have hR : (IdealGas.new n : IdealGas ℝ).gas_constant ≠ 0 := (IdealGas.gas_constant_pos n).ne'
  refine (hP.div (hT.const_mul (IdealGas.new n : IdealGas ℝ).gas_constant)
    (mul_ne_zero hR h0)).congr_deriv ?_
  simp only [IdealGas.dd_dP_T, IdealGas.dd_dT_P]
  scalars
  field_simp
  ring

theorem dens_const (T : ℝ) (hP : HasDerivWithinAt P P' S t) :
    HasDerivWithinAt (fun t => (IdealGas.new n : IdealGas ℝ).dens T (P t))
      ((IdealGas.new n : IdealGas ℝ).dd_dP_T T (P t) * P') S t := by
  refine (hP.div_const ((IdealGas.new n : IdealGas ℝ).gas_constant * T)).congr_deriv ?_
  simp only [IdealGas.dd_dP_T]
  scalars
  ring

theorem inte_hasDeriv (n : GasName) (T P : ℝ) :
    HasDerivAt (fun T => (IdealGas.new n : IdealGas ℝ).inte T P)
      ((IdealGas.new n : IdealGas ℝ).du_dT_P T P
        + heatCapacityError (IdealGas.new n : IdealGas ℝ).toFluid T P) T := by
  have h := (IdealGas.enth_deriv n T P).sub (((hasDerivAt_id T).sub_const
    (IdealGas.new n : IdealGas ℝ).ref_temp).const_mul (IdealGas.new n : IdealGas ℝ).gas_constant)
  have h2 : HasDerivAt (fun T => (IdealGas.new n : IdealGas ℝ).inte T P) _ T := h
  refine h2.congr_deriv ?_
  rw [heatCapacityError]
  show _ = _ + (deriv (fun T => (IdealGas.new n : IdealGas ℝ).inte T P) T
    - (IdealGas.new n : IdealGas ℝ).du_dT_P T P)
  rw [h2.deriv]
  ring

theorem inte_curve (hT : HasDerivWithinAt T T' S t) :
    HasDerivWithinAt (fun t => (IdealGas.new n : IdealGas ℝ).inte (T t) (P t))
      (((IdealGas.new n : IdealGas ℝ).du_dT_P (T t) (P t)
        + heatCapacityError (IdealGas.new n : IdealGas ℝ).toFluid (T t) (P t)) * T') S t :=
  (inte_hasDeriv n (T t) (P t)).comp_hasDerivWithinAt t hT

end curves

/-- The rate of the gas mass along a trajectory is the total mass rate of the balances. -/
theorem gasMass_hasDeriv {r : Run ℝ} {n : GasName} (hf : r.fluid = (IdealGas.new n).toFluid)
    {y : ℝ → Conditions ℝ} {t : ℝ} {s : Solution ℝ} (h : Follows r y t s)
    (hV : HasDerivAt (fun t => (r.ws_vol_fn t).1.value) (r.ws_vol_fn t).1.deriv t ∧
      HasDerivAt (fun t => (r.ws_vol_fn t).2.value) (r.ws_vol_fn t).2.deriv t)
    (hc : (y t).T_c ≠ 0) (he : (y t).T_e ≠ 0) :
    HasDerivWithinAt (gasMass r y) (totalMassRate (r.calculate_inputs t (y t)) s) (Set.Ici t) t := by
  unfold gasMass compGas expGas
  have h1 := hV.1.hasDerivWithinAt.mul (dens_curve (n := n) h.comp h.pres hc)
  have h2 := hV.2.hasDerivWithinAt.mul (dens_curve (n := n) h.exp h.pres he)
  have hk := (dens_const (n := n) r.temp.chx h.pres).const_mul r.vol_chx
  have hr := (dens_const (n := n) r.temp.regen.avg h.pres).const_mul r.vol_regen
  have hl := (dens_const (n := n) r.temp.hhx h.pres).const_mul r.vol_hhx
  rw [hf]
  refine ((((h1.add hk).add hr).add hl).add h2).congr_deriv ?_
  simp only [totalMassRate, compMass, chxMass, regenMass, hhxMass, expMass, massRate,
    Run.calculate_inputs, Run.comp_inputs, Run.chx_inputs, Run.regen_inputs, Run.hhx_inputs,
    Run.exp_inputs, hf, IdealGas.toFluid]
  ring

/-- The rate of the internal energy along a trajectory: the total energy rate of the balances, plus what
the fluid's wrong heat capacity adds. -/
theorem gasEnergy_hasDeriv {r : Run ℝ} {n : GasName} (hf : r.fluid = (IdealGas.new n).toFluid)
    {y : ℝ → Conditions ℝ} {t : ℝ} {s : Solution ℝ} (h : Follows r y t s)
    (hV : HasDerivAt (fun t => (r.ws_vol_fn t).1.value) (r.ws_vol_fn t).1.deriv t ∧
      HasDerivAt (fun t => (r.ws_vol_fn t).2.value) (r.ws_vol_fn t).2.deriv t)
    (hc : (y t).T_c ≠ 0) (he : (y t).T_e ≠ 0) :
    HasDerivWithinAt (gasEnergy r y) (totalEnergyRate (r.calculate_inputs t (y t)) s
      + compGas r y t * heatCapacityError r.fluid (y t).T_c (y t).P * s.dTc_dt
      + expGas r y t * heatCapacityError r.fluid (y t).T_e (y t).P * s.dTe_dt) (Set.Ici t) t := by
  unfold gasEnergy compGas expGas
  have h1 := (hV.1.hasDerivWithinAt.mul (dens_curve (n := n) h.comp h.pres hc)).mul
    (inte_curve (n := n) (P := fun t => (y t).P) h.comp)
  have h2 := (hV.2.hasDerivWithinAt.mul (dens_curve (n := n) h.exp h.pres he)).mul
    (inte_curve (n := n) (P := fun t => (y t).P) h.exp)
  have hu : ∀ T : ℝ, (fun t => (IdealGas.new n : IdealGas ℝ).inte T (y t).P)
      = fun _ => (IdealGas.new n : IdealGas ℝ).inte T 0 := fun T => rfl
  have hx : ∀ T V : ℝ, HasDerivWithinAt (fun t => V * ((IdealGas.new n : IdealGas ℝ).dens T (y t).P
      * (IdealGas.new n : IdealGas ℝ).inte T (y t).P))
      (V * ((IdealGas.new n : IdealGas ℝ).dd_dP_T T (y t).P * s.dP_dt
        * (IdealGas.new n : IdealGas ℝ).inte T (y t).P)) (Set.Ici t) t := fun T V =>
    ((dens_const (n := n) T h.pres).mul_const ((IdealGas.new n : IdealGas ℝ).inte T 0)).const_mul V
  have hk := hx r.temp.chx r.vol_chx
  have hr := hx r.temp.regen.avg r.vol_regen
  have hl := hx r.temp.hhx r.vol_hhx
  rw [hf]
  refine ((((h1.add hk).add hr).add hl).add h2).congr_deriv ?_
  simp only [totalEnergyRate, compEnergy, chxEnergy, regenEnergy, hhxEnergy, expEnergy, energyRate,
    Run.calculate_inputs, Run.comp_inputs, Run.chx_inputs, Run.regen_inputs, Run.hhx_inputs,
    Run.exp_inputs, hf, IdealGas.toFluid, IdealGas.du_dP_T, Pi.mul_apply]
  scalars
  ring

theorem gas_continuousOn {r : Run ℝ} {n : GasName} (hf : r.fluid = (IdealGas.new n).toFluid)
    {y : ℝ → Conditions ℝ} {a b : ℝ} (hy : Regular y a b)
    (hV : ∀ t, HasDerivAt (fun t => (r.ws_vol_fn t).1.value) (r.ws_vol_fn t).1.deriv t ∧
      HasDerivAt (fun t => (r.ws_vol_fn t).2.value) (r.ws_vol_fn t).2.deriv t) :
    ContinuousOn (gasMass r y) (Set.Icc a b) ∧ ContinuousOn (gasEnergy r y) (Set.Icc a b) := by
  have hR : (IdealGas.new n : IdealGas ℝ).gas_constant ≠ 0 := (IdealGas.gas_constant_pos n).ne'
  have hu : ∀ P : ℝ → ℝ, Continuous fun T => (IdealGas.new n : IdealGas ℝ).inte T 0 := fun _ =>
    continuous_iff_continuousAt.2 fun T => (inte_hasDeriv n T 0).continuousAt
  have hd : ∀ T : ℝ → ℝ, ContinuousOn T (Set.Icc a b) → (∀ t ∈ Set.Icc a b, 0 < T t) →
      ContinuousOn (fun t => (IdealGas.new n : IdealGas ℝ).dens (T t) (y t).P) (Set.Icc a b) :=
    fun T hT hp => hy.pres.div (continuousOn_const.mul hT)
      fun t ht => mul_ne_zero hR (hp t ht).ne'
  have hdc : ∀ T : ℝ, ContinuousOn (fun t => (IdealGas.new n : IdealGas ℝ).dens T (y t).P)
      (Set.Icc a b) := fun T => hy.pres.div_const _
  have hv1 : Continuous fun t => (r.ws_vol_fn t).1.value :=
    continuous_iff_continuousAt.2 fun t => (hV t).1.continuousAt
  have hv2 : Continuous fun t => (r.ws_vol_fn t).2.value :=
    continuous_iff_continuousAt.2 fun t => (hV t).2.continuousAt
  have hc := hv1.continuousOn.mul (hd _ hy.comp hy.comp_pos)
  have he := hv2.continuousOn.mul (hd _ hy.exp hy.exp_pos)
  have huc : ∀ T : ℝ → ℝ, ContinuousOn T (Set.Icc a b) →
      ContinuousOn (fun t => (IdealGas.new n : IdealGas ℝ).inte (T t) (y t).P) (Set.Icc a b) :=
    fun T hT => (hu fun _ => 0).comp_continuousOn hT
  have hk : ∀ V T : ℝ, ContinuousOn (fun t => V * ((IdealGas.new n : IdealGas ℝ).dens T (y t).P
      * (IdealGas.new n : IdealGas ℝ).inte T (y t).P)) (Set.Icc a b) := fun V T =>
    continuousOn_const.mul ((hdc T).mul
      (continuousOn_const (c := (IdealGas.new n : IdealGas ℝ).inte T 0)))
  unfold gasMass gasEnergy compGas expGas
  rw [hf]
  constructor
  · exact ((((hc.add (continuousOn_const.mul (hdc _))).add (continuousOn_const.mul (hdc _))).add
      (continuousOn_const.mul (hdc _))).add he)
  · exact ((((hc.mul (huc _ hy.comp)).add (hk _ _)).add (hk _ _)).add (hk _ _)).add
      (he.mul (huc _ hy.exp))

/-- **C55.** Along any exact trajectory of the equations an engine run sets up, the total mass of gas is
constant.  The fluid is either of the crate's ideal gases, the drive any drive whose rates are the
derivatives of its volumes (both drives of the crate are, C11 and C13), the decomposition sound. -/
theorem C55_total_mass_constant (U : MatrixDecomposition ℝ) (hU : Sound U) (c : Components ℝ)
    (hdrive : ExactDrive c.ws) (state : State ℝ) (n : GasName)
    (hfluid : state.fluid = (IdealGas.new n).toFluid) (y : ℝ → Conditions ℝ) (a b : ℝ)
    (hy : Regular y a b)
    (hode : ∀ t ∈ Set.Ico a b, ∃ s, Follows (Run.new U c state) y t s) :
    ∀ t ∈ Set.Icc a b, gasMass (Run.new U c state) y t = gasMass (Run.new U c state) y a := by
  have hV := fun t => hdrive state.ws t
  refine constant_of_has_deriv_right_zero
    (gas_continuousOn (r := Run.new U c state) hfluid hy hV).1 fun t ht => ?_
  obtain ⟨s, hs⟩ := hode t ht
  have ht' := Set.Ico_subset_Icc_self ht
  have h := gasMass_hasDeriv (r := Run.new U c state) hfluid hs (hV t) (hy.comp_pos t ht').ne'
    (hy.exp_pos t ht').ne'
  obtain ⟨hint, hsol⟩ := hs.solved
  rwa [C05_total_mass_conserved U hU _ hint s hsol] at h

/-- **C55**, in terms of the engine's own components and state. -/
theorem C55_engine_mass_constant (U : MatrixDecomposition ℝ) (hU : Sound U) (c : Components ℝ)
    (hdrive : ExactDrive c.ws) (state : State ℝ) (n : GasName)
    (hfluid : state.fluid = (IdealGas.new n).toFluid) (y : ℝ → Conditions ℝ) (a b : ℝ)
    (hy : Regular y a b)
    (hode : ∀ t ∈ Set.Ico a b, ∃ s, Follows (Run.new U c state) y t s) :
    ∀ t ∈ Set.Icc a b, engineMass c state y t = engineMass c state y a :=
  C55_total_mass_constant U hU c hdrive state n hfluid y a b hy hode

/-- **C56**, rate form: along an exact trajectory the internal energy of the gas changes by the work done
on it and the heat it exchanges, plus a spurious source proportional to the error of the fluid's heat
capacity. -/
theorem C56_energy_rate (U : MatrixDecomposition ℝ) (hU : Sound U) (c : Components ℝ)
    (hdrive : ExactDrive c.ws) (state : State ℝ) (n : GasName)
    (hfluid : state.fluid = (IdealGas.new n).toFluid) (y : ℝ → Conditions ℝ) (t : ℝ)
    (hc : 0 < (y t).T_c) (he : 0 < (y t).T_e) (hnorm : (Run.new U c state).enth_norm ≠ 0)
    (s : Solution ℝ) (hs : Follows (Run.new U c state) y t s) :
    HasDerivWithinAt (gasEnergy (Run.new U c state) y)
      (-(y t).P * ((c.ws.volumes state.ws t).1.deriv + (c.ws.volumes state.ws t).2.deriv)
        - (c.ws.parasitics state.ws).comp.thermal - (c.ws.parasitics state.ws).exp.thermal
        - s.Q_dot_k - s.Q_dot_r + s.Q_dot_l
        + compGas (Run.new U c state) y t * heatCapacityError state.fluid (y t).T_c (y t).P * s.dTc_dt
        + expGas (Run.new U c state) y t * heatCapacityError state.fluid (y t).T_e (y t).P * s.dTe_dt)
      (Set.Ici t) t := by
  have h := gasEnergy_hasDeriv (r := Run.new U c state) hfluid hs (hdrive state.ws t) hc.ne' he.ne'
  obtain ⟨hint, hsol⟩ := hs.solved
  rw [C06_total_energy_balance U hU _ hnorm hint s hsol] at h
  exact h

/-- **C56**, rate form, in terms of the engine's own components and state. -/
theorem C56_engine_energy_rate (U : MatrixDecomposition ℝ) (hU : Sound U) (c : Components ℝ)
    (hdrive : ExactDrive c.ws) (state : State ℝ) (n : GasName)
    (hfluid : state.fluid = (IdealGas.new n).toFluid) (y : ℝ → Conditions ℝ) (t : ℝ)
    (hc : 0 < (y t).T_c) (he : 0 < (y t).T_e)
    (hnorm : state.fluid.enth state.temp.sink state.pres.avg
      + state.fluid.enth state.temp.source state.pres.avg ≠ 0)
    (s : Solution ℝ) (hs : Follows (Run.new U c state) y t s) :
    HasDerivWithinAt (engineEnergy c state y)
      (-(y t).P * ((c.ws.volumes ⟨state.pres⟩ t).1.deriv + (c.ws.volumes ⟨state.pres⟩ t).2.deriv)
        - (c.ws.parasitics ⟨state.pres⟩).comp.thermal - (c.ws.parasitics ⟨state.pres⟩).exp.thermal
        - s.Q_dot_k - s.Q_dot_r + s.Q_dot_l
        + (c.ws.volumes ⟨state.pres⟩ t).1.value * state.fluid.dens (y t).T_c (y t).P
          * heatCapacityError state.fluid (y t).T_c (y t).P * s.dTc_dt
        + (c.ws.volumes ⟨state.pres⟩ t).2.value * state.fluid.dens (y t).T_e (y t).P
          * heatCapacityError state.fluid (y t).T_e (y t).P * s.dTe_dt)
      (Set.Ici t) t := by
  have hn : (Run.new U c state).enth_norm ≠ 0 := mul_ne_zero (by norm_num) hnorm
  have h := C56_energy_rate U hU c hdrive state n hfluid y t hc he hn s hs
  refine HasDerivWithinAt.congr_of_eventuallyEq h (.of_forall fun t => ?_) ?_
  all_goals
    simp only [engineEnergy, gasEnergy, compGas, expGas, Run.new, State.ws]
    ring

/-- **C56**, helium: the spurious source is zero. -/
theorem C56_helium_exact (T P : ℝ) :
    heatCapacityError (IdealGas.helium : IdealGas ℝ).toFluid T P = 0 := by
  have h := (IdealGas.C17_helium_partial T P).2.deriv
  unfold heatCapacityError
  exact sub_eq_zero.2 h

/-- **C56**, hydrogen: the spurious source is the enthalpy-integration error of C17. -/
theorem C56_hydrogen_error (T P : ℝ) :
    heatCapacityError (IdealGas.hydrogen : IdealGas ℝ).toFluid T P = -250 * (13.3194432 / 2
        + 2 * (-3.47782806e-2) / 3 * T + 3 * 4.31784838e-5 / 4 * T ^ 2
        + 4 * (-2.42883335e-8) / 5 * T ^ 3 + 5 * 5.14289838e-12 / 6 * T ^ 4) := by
  have h := (IdealGas.C17_hydrogen_discrepancy T P).sub (((hasDerivAt_id T).sub_const
    (IdealGas.hydrogen : IdealGas ℝ).ref_temp).const_mul
      (IdealGas.hydrogen : IdealGas ℝ).gas_constant)
  have h2 : HasDerivAt (fun T => (IdealGas.hydrogen : IdealGas ℝ).inte T P) _ T := h
  unfold heatCapacityError
  show deriv (fun T => (IdealGas.hydrogen : IdealGas ℝ).inte T P) T
    - ((IdealGas.hydrogen : IdealGas ℝ).cp T P - (IdealGas.hydrogen : IdealGas ℝ).gas_constant) = _
  rw [h2.deriv]
  ring

/-- **C56**, closed cycle with helium: over any interval after which the state and the volumes are back
where they started, the work done by the gas equals the net heat it received. -/
theorem C56_helium_cycle (U : MatrixDecomposition ℝ) (hU : Sound U) (c : Components ℝ)
    (hdrive : ExactDrive c.ws) (state : State ℝ)
    (hfluid : state.fluid = (IdealGas.helium : IdealGas ℝ).toFluid)
    (hnorm : (Run.new U c state).enth_norm ≠ 0) (y : ℝ → Conditions ℝ) (a b : ℝ) (hab : a ≤ b)
    (hy : Regular y a b) (s : ℝ → Solution ℝ)
    (hode : ∀ t ∈ Set.Ico a b, Follows (Run.new U c state) y t (s t))
    (hQk : ContinuousOn (fun t => (s t).Q_dot_k) (Set.Icc a b))
    (hQr : ContinuousOn (fun t => (s t).Q_dot_r) (Set.Icc a b))
    (hQl : ContinuousOn (fun t => (s t).Q_dot_l) (Set.Icc a b))
    (hdV : Continuous fun t =>
      (c.ws.volumes state.ws t).1.deriv + (c.ws.volumes state.ws t).2.deriv)
    (hclosed : y b = y a)
    (hvol : (c.ws.volumes state.ws b).1.value = (c.ws.volumes state.ws a).1.value ∧
      (c.ws.volumes state.ws b).2.value = (c.ws.volumes state.ws a).2.value) :
    ∫ t in a..b, (y t).P * ((c.ws.volumes state.ws t).1.deriv + (c.ws.volumes state.ws t).2.deriv)
      = (∫ t in a..b, (s t).Q_dot_l) - (∫ t in a..b, (s t).Q_dot_k) - (∫ t in a..b, (s t).Q_dot_r)
        - (b - a) * ((c.ws.parasitics state.ws).comp.thermal
          + (c.ws.parasitics state.ws).exp.thermal) := by
  have hI := Set.uIcc_of_le hab
  have hW : ContinuousOn (fun t => (y t).P *
      ((c.ws.volumes state.ws t).1.deriv + (c.ws.volumes state.ws t).2.deriv)) (Set.Icc a b) :=
    hy.pres.mul hdV.continuousOn
  have iW := (hW.intervalIntegrable_of_Icc hab (μ := MeasureTheory.volume))
  have iK := (hQk.intervalIntegrable_of_Icc hab (μ := MeasureTheory.volume))
  have iR := (hQr.intervalIntegrable_of_Icc hab (μ := MeasureTheory.volume))
  have iL := (hQl.intervalIntegrable_of_Icc hab (μ := MeasureTheory.volume))
  set q := (c.ws.parasitics state.ws).comp.thermal + (c.ws.parasitics state.ws).exp.thermal with hq
  have key := intervalIntegral.integral_eq_sub_of_hasDeriv_right (f := gasEnergy (Run.new U c state) y)
    (f' := fun t => (s t).Q_dot_l - (s t).Q_dot_k - (s t).Q_dot_r - q - (y t).P *
      ((c.ws.volumes state.ws t).1.deriv + (c.ws.volumes state.ws t).2.deriv)) (a := a) (b := b)
    (by
      rw [hI]
      exact (gas_continuousOn (r := Run.new U c state) (n := .Helium) hfluid hy
        fun t => hdrive state.ws t).2)
    (by
      intro t ht
      rw [min_eq_left hab, max_eq_right hab] at ht
      have ht' := Set.Ioo_subset_Icc_self ht
      have h := C56_energy_rate U hU c hdrive state .Helium hfluid y t (hy.comp_pos t ht')
        (hy.exp_pos t ht') hnorm (s t) (hode t (Set.Ioo_subset_Ico_self ht))
      rw [hfluid, C56_helium_exact, C56_helium_exact] at h
      refine (h.mono Set.Ioi_subset_Ici_self).congr_deriv ?_
      rw [hq]; ring)
    ((((iL.sub iK).sub iR).sub intervalIntegrable_const).sub iW)
  have hend : gasEnergy (Run.new U c state) y b = gasEnergy (Run.new U c state) y a := by
    simp only [gasEnergy, compGas, expGas, Run.new, hclosed, hvol.1, hvol.2]
  rw [hend, sub_self, intervalIntegral.integral_sub (((iL.sub iK).sub iR).sub
    intervalIntegrable_const) iW, intervalIntegral.integral_sub ((iL.sub iK).sub iR)
    intervalIntegrable_const, intervalIntegral.integral_sub (iL.sub iK) iR,
    intervalIntegral.integral_sub iL iK, intervalIntegral.integral_const] at key
  simp only [smul_eq_mul] at key
  linarith

end Sett
