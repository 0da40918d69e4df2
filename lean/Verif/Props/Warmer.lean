import Verif.Spec.Warmer
import Verif.Props.SecondLaw

/-! # C105: only the ratios of the temperatures matter -/

namespace Sett

open Spec state_equations

section
variable {r r' : Run ℝ} {k R cp h0 u0 h0' u0' : ℝ}

/-- **C105**: at one instant, `k` times the temperatures, the same pressure and rates of pressure, the same heats, and `1 / k` of the
flows, provided the zeros of enthalpy and internal energy are as far apart as `k` times the original ones. -/
theorem C105_similar (hk : 0 < k) (hg : PerfectGas r.fluid R cp h0 u0) (hg' : PerfectGas r'.fluid R cp h0' u0')
    (hz : u0' - h0' = k * (u0 - h0)) (h : WarmerRun k r r') (t : ℝ) (y : Conditions ℝ) (s : Solution ℝ) (hs : Obeys r t y s) :
    Obeys r' t (warmer k y) (warmerSolution k s) := by
  unfold Obeys at hs ⊢
  have pos : ∀ x : ℝ, 0 ≤ x / k ↔ 0 ≤ x := fun x => by rw [div_nonneg_iff]; constructor <;> [rintro (h | h) <;> linarith; exact fun h => .inl ⟨h, hk.le⟩]
  have hu : upwind (r'.calculate_inputs t (warmer k y)) (warmerSolution k s)
      = (fun f : Faces => ⟨k * (f.ck - h0) + h0', k * (f.kr - h0) + h0', k * (f.rl - h0) + h0', k * (f.le - h0) + h0'⟩)
        (upwind (r.calculate_inputs t y) s) := by
    simp only [upwind, warmerSolution, warmer, pos, Run.calculate_inputs,
      Run.comp_inputs, Run.chx_inputs, Run.regen_inputs, Run.hhx_inputs, Run.exp_inputs, hg.enth, hg'.enth, h.chx, h.hhx, h.cold, h.hot]
    congr 1 <;> split <;> ring
  rw [hu]
  generalize upwind (r.calculate_inputs t y) s = f at hs
  obtain ⟨b1, b2, b3, b4, b5, b6, b7, b8, b9, b10⟩ := hs
  have e1 : ∀ T P : ℝ, P / (R * (k * T)) = P / (R * T) / k := fun T P => by ring
  have e2 : ∀ T P : ℝ, -P / (R * (k * T) ^ 2) = -P / (R * T ^ 2) / k ^ 2 := fun T P => by ring
  simp only [compMass, compEnergy, chxMass, chxEnergy, regenMass, regenEnergy, hhxMass, hhxEnergy,
    expMass, expEnergy, massRate, energyRate, Run.calculate_inputs,
    Run.comp_inputs, Run.chx_inputs, Run.regen_inputs, Run.hhx_inputs, Run.exp_inputs, hg.dens, hg.inte, hg.dd_dP_T, hg.dd_dT_P,
    hg.du_dP_T, hg.du_dT_P] at b1 b2 b3 b4 b5 b6 b7 b8 b9 b10
  have hk' := hk.ne'
  have hu0 : u0' = k * (u0 - h0) + h0' := by linarith
  constructor <;>
    simp only [compMass, compEnergy, chxMass, chxEnergy, regenMass, regenEnergy, hhxMass, hhxEnergy,
      expMass, expEnergy, massRate, energyRate, warmerSolution, warmer, Run.calculate_inputs,
      Run.comp_inputs, Run.chx_inputs, Run.regen_inputs, Run.hhx_inputs, Run.exp_inputs, hg'.dens, hg'.inte, hg'.dd_dP_T, hg'.dd_dT_P,
      hg'.du_dP_T, hg'.du_dT_P, h.volumes, h.losses, h.vol_chx, h.vol_regen, h.vol_hhx, h.chx, h.hhx, h.avg, e1, e2, hu0]
  · generalize y.P / (R * y.T_c) = ρ at *
    generalize 1 / (R * y.T_c) = ρP at *
    generalize -y.P / (R * y.T_c ^ 2) = ρT at *
    field_simp
    linear_combination b1
  · generalize y.P / (R * y.T_c) = ρ at *
    generalize 1 / (R * y.T_c) = ρP at *
    generalize -y.P / (R * y.T_c ^ 2) = ρT at *
    field_simp
    linear_combination k * b2 + (h0' - k * h0) * b1
  · field_simp at b3 ⊢
    linear_combination b3
  · generalize y.P / (R * r.temp.chx) = ρ at *
    generalize 1 / (R * r.temp.chx) = ρP at *
    field_simp
    linear_combination k * b4 + (h0' - k * h0) * b3
  · field_simp at b5 ⊢
    linear_combination b5
  · generalize y.P / (R * r.temp.regen.avg) = ρ at *
    generalize 1 / (R * r.temp.regen.avg) = ρP at *
    field_simp
    linear_combination k * b6 + (h0' - k * h0) * b5
  · field_simp at b7 ⊢
    linear_combination b7
  · generalize y.P / (R * r.temp.hhx) = ρ at *
    generalize 1 / (R * r.temp.hhx) = ρP at *
    field_simp
    linear_combination k * b8 + (h0' - k * h0) * b7
  · generalize y.P / (R * y.T_e) = ρ at *
    generalize 1 / (R * y.T_e) = ρP at *
    generalize -y.P / (R * y.T_e ^ 2) = ρT at *
    field_simp
    linear_combination b9
  · generalize y.P / (R * y.T_e) = ρ at *
    generalize 1 / (R * y.T_e) = ρP at *
    generalize -y.P / (R * y.T_e ^ 2) = ρT at *
    field_simp
    linear_combination k * b10 + (h0' - k * h0) * b9

/-- The gas that enters a working space of a perfect gas, from the balances alone: `u0 - h0` acts as a shift of the temperature at which the
gas comes and goes. -/
theorem C105_inflow (hg : PerfectGas r.fluid R cp h0 u0) {t : ℝ} {y : Conditions ℝ} {s : Solution ℝ} (hs : Obeys r t y s)
    (hc : y.T_c ≠ 0) (he : y.T_e ≠ 0) :
    (cp * (if 0 ≤ s.m_dot_ck then y.T_c else r.temp.chx) - (u0 - h0)) * -s.m_dot_ck
      = ((cp - R) * (r.ws_vol_fn t).1.value * s.dP_dt + cp * y.P * (r.ws_vol_fn t).1.deriv) / R + r.ws_parasitics.comp.thermal ∧
    (cp * (if 0 ≤ s.m_dot_le then r.temp.hhx else y.T_e) - (u0 - h0)) * s.m_dot_le
      = ((cp - R) * (r.ws_vol_fn t).2.value * s.dP_dt + cp * y.P * (r.ws_vol_fn t).2.deriv) / R + r.ws_parasitics.exp.thermal := by
  have hR := hg.R_pos.ne'
  obtain ⟨b1, b2, -, -, -, -, -, -, b9, b10⟩ := hs
  simp only [compMass, compEnergy, expMass, expEnergy, massRate, energyRate, upwind, Run.calculate_inputs,
    Run.comp_inputs, Run.chx_inputs, Run.hhx_inputs, Run.exp_inputs, hg.dens, hg.enth, hg.inte, hg.dd_dP_T, hg.dd_dT_P,
    hg.du_dP_T, hg.du_dT_P] at b1 b2 b9 b10
  constructor
  · have e : (if 0 ≤ s.m_dot_ck then cp * y.T_c + h0 else cp * r.temp.chx + h0)
        = cp * (if 0 ≤ s.m_dot_ck then y.T_c else r.temp.chx) + h0 := by split <;> rfl
    rw [e] at b2
    generalize (if 0 ≤ s.m_dot_ck then y.T_c else r.temp.chx) = T at *
    have b3 : -s.m_dot_ck = (r.ws_vol_fn t).1.value * (1 / (R * y.T_c) * s.dP_dt + -y.P / (R * y.T_c ^ 2) * s.dTc_dt)
      + y.P / (R * y.T_c) * (r.ws_vol_fn t).1.deriv := b1.symm
    have b4 : (cp * T - (u0 - h0)) * -s.m_dot_ck = (cp * T + h0) * -s.m_dot_ck + u0 * s.m_dot_ck := by ring
    rw [b4]
    have : u0 * s.m_dot_ck = -u0 * -s.m_dot_ck := by ring
    rw [this, b3]
    rw [show -(cp * T + h0) * s.m_dot_ck = (cp * T + h0) * -s.m_dot_ck by ring, b3] at b2
    field_simp at b2 ⊢
    linear_combination -b2
  · have e : (if 0 ≤ s.m_dot_le then cp * r.temp.hhx + h0 else cp * y.T_e + h0)
        = cp * (if 0 ≤ s.m_dot_le then r.temp.hhx else y.T_e) + h0 := by split <;> rfl
    rw [e] at b10
    generalize (if 0 ≤ s.m_dot_le then r.temp.hhx else y.T_e) = T at *
    rw [← b9] at b10 ⊢
    field_simp at b10 ⊢
    linear_combination -b10

/-- **C105** for a gas: where `h - u = P / ρ` only the ratios of the temperatures matter, and the zero of both does not. -/
theorem C105_perfect (hk : 0 < k) (hg : PerfectGas r.fluid R cp h0 h0) (hg' : PerfectGas r'.fluid R cp h0' h0') (h : WarmerRun k r r')
    (t : ℝ) (y : Conditions ℝ) (s : Solution ℝ) (hs : Obeys r t y s) : Obeys r' t (warmer k y) (warmerSolution k s) :=
  C105_similar hk hg hg' (by ring) h t y s hs

/-- **C105**, motions: the gas passes through the same pressures at `k` times the temperatures, and does the same work. -/
theorem C105_motion (hk : 0 < k) (hg : PerfectGas r.fluid R cp h0 u0) (hg' : PerfectGas r'.fluid R cp h0' u0')
    (hz : u0' - h0' = k * (u0 - h0)) (h : WarmerRun k r r') {y : ℝ → Conditions ℝ} {s : ℝ → Solution ℝ} {a b : ℝ}
    (hm : MotionOf r y s a b) :
    MotionOf r' (fun t => warmer k (y t)) (fun t => warmerSolution k (s t)) a b ∧
      workOf r' (fun t => warmer k (y t)) a b = workOf r y a b ∧
      ∀ t, gasMass r' (fun t => warmer k (y t)) t = gasMass r y t / k := by
  refine ⟨fun t ht => ?_, ?_, fun t => ?_⟩
  · obtain ⟨h1, h2, h3, h4⟩ := hm t ht
    exact ⟨C105_similar hk hg hg' hz h t _ _ h1, h2, h3.const_mul k, h4.const_mul k⟩
  · simp only [workOf, warmer, h.volumes]
  · have e : ∀ T P : ℝ, P / (R * (k * T)) = P / (R * T) / k := fun T P => by ring
    simp only [gasMass, compGas, expGas, warmer, hg.dens, hg'.dens, h.volumes, h.vol_chx, h.vol_regen, h.vol_hhx, h.chx, h.hhx, h.avg, e]
    ring

/-- The crate's helium with its enthalpy counted from another temperature. -/
noncomputable def heliumFrom (ref : ℝ) : IdealGas ℝ := { (IdealGas.helium : IdealGas ℝ) with ref_temp := ref }

theorem heliumFrom_perfect (ref : ℝ) : PerfectGas (heliumFrom ref).toFluid 2077.23 5193.17 (-(5193.17 * ref))
    (-((5193.17 - 2077.23) * ref)) := by
  have hR : (heliumFrom ref).gas_constant = 2077.23 := by
    simp only [heliumFrom, IdealGas.helium, IdealGas.new, IdealGas.parameters]
  have hr : (heliumFrom ref).ref_temp = ref := rfl
  have he : ∀ T P, (heliumFrom ref).enth T P = 5193.17 * (T - ref) := fun T P => by
    simp only [IdealGas.enth, heliumFrom, IdealGas.helium, IdealGas.new, IdealGas.parameters, Coefs.map, poly]
    norm_num
  have h := helium_perfect
  refine ⟨h.R_pos, h.cp_pos, h.dens, fun T P => ?_, fun T P => ?_, h.dd_dP_T, h.dd_dT_P, h.du_dP_T, h.du_dT_P⟩
  · exact (he T P).trans (by ring)
  · show (heliumFrom ref).enth T P - (heliumFrom ref).gas_constant * (T - (heliumFrom ref).ref_temp) = _
    rw [he, hR, hr]; ring

/-- **C105**, what holds of the crate's helium: only the ratios of the temperatures matter if the temperature from which it counts its
enthalpy is counted among them. -/
theorem C105_helium_partial (hk : 0 < k) (hf : r.fluid = (IdealGas.helium : IdealGas ℝ).toFluid)
    (hf' : r'.fluid = (heliumFrom (k * 250)).toFluid) (h : WarmerRun k r r') {y : ℝ → Conditions ℝ} {s : ℝ → Solution ℝ} {a b : ℝ}
    (hm : MotionOf r y s a b) :
    MotionOf r' (fun t => warmer k (y t)) (fun t => warmerSolution k (s t)) a b ∧
      workOf r' (fun t => warmer k (y t)) a b = workOf r y a b ∧
      ∀ t, gasMass r' (fun t => warmer k (y t)) t = gasMass r y t / k := by
  have hg := helium_perfect
  rw [← hf] at hg
  have hg' := heliumFrom_perfect (k * 250)
  rw [← hf'] at hg'
  exact C105_motion hk hg hg' (by ring) h hm

/-- **C105** is false of the crate's helium: at other temperatures, in the same proportions, its balances have the corresponding
solution only while no gas passes into or out of the spaces. -/
theorem C105_helium_false (hk : 0 < k) (hk1 : k ≠ 1) (hf : r.fluid = (IdealGas.helium : IdealGas ℝ).toFluid)
    (hf' : r'.fluid = (IdealGas.helium : IdealGas ℝ).toFluid) (h : WarmerRun k r r') {t : ℝ} {y : Conditions ℝ} {s : Solution ℝ}
    (hc : y.T_c ≠ 0) (he : y.T_e ≠ 0) (hs : Obeys r t y s) (hm : s.m_dot_ck ≠ 0 ∨ s.m_dot_le ≠ 0) :
    ¬Obeys r' t (warmer k y) (warmerSolution k s) := by
  intro hs'
  have hg := helium_perfect
  rw [← hf] at hg
  have hg' := helium_perfect
  rw [← hf'] at hg'
  have i := C105_inflow hg hs hc he
  have i' := C105_inflow hg' hs' (mul_ne_zero hk.ne' hc) (mul_ne_zero hk.ne' he)
  have pos : ∀ x : ℝ, 0 ≤ x / k ↔ 0 ≤ x := fun x => by
    rw [div_nonneg_iff]; constructor <;> [rintro (h | h) <;> linarith; exact fun h => .inl ⟨h, hk.le⟩]
  simp only [warmerSolution, warmer, h.volumes, h.losses, pos, h.chx, h.hhx] at i'
  rw [← i.1, ← i.2] at i'
  have pull : ∀ (p : Prop) [Decidable p] (a b : ℝ), (if p then k * a else k * b) = k * if p then a else b := fun p _ a b => by
    split <;> rfl
  rw [pull, pull] at i'
  obtain ⟨i1, i2⟩ := i'
  generalize (if 0 ≤ s.m_dot_ck then y.T_c else r.temp.chx) = T at *
  generalize (if 0 ≤ s.m_dot_le then r.temp.hhx else y.T_e) = T' at *
  have key : ∀ T m : ℝ, (5193.17 * (k * T) - (-((5193.17 - 2077.23) * 250) - -(5193.17 * 250))) * (m / k)
      = (5193.17 * T - (-((5193.17 - 2077.23) * 250) - -(5193.17 * 250))) * m → m = 0 := fun T m e => by
    field_simp at e
    have : (k - 1) * m = 0 := by linarith
    rcases mul_eq_zero.1 this with h | h
    · exact absurd (by linarith) hk1
    · exact h
  have i1' := key T (-s.m_dot_ck) (by rw [← i1]; ring)
  have i2' := key T' s.m_dot_le i2
  rcases hm with hm | hm
  · exact hm (by linarith)
  · exact hm i2'

/-- **C105**, what goes wrong.  Gas of one temperature `T` throughout is pushed from the compression space into the expansion space at
constant total volume.  The pressure stays, but unless `u0 = h0` the temperatures do not. -/
theorem C105_pushed (hg : PerfectGas r.fluid R cp h0 u0) (hcv : R ≤ cp) {t : ℝ} {y : Conditions ℝ} {s : Solution ℝ} (hs : Obeys r t y s) {T q : ℝ}
    (hT : 0 < T) (hw : u0 - h0 < cp * T) (hP : 0 < y.P) (hTc : y.T_c = T) (hTe : y.T_e = T) (hk : r.temp.chx = T)
    (hr : r.temp.regen.avg = T) (hl : r.temp.hhx = T)
    (hVc : 0 < (r.ws_vol_fn t).1.value) (hVe : 0 < (r.ws_vol_fn t).2.value) (hv1 : 0 ≤ r.vol_chx) (hv2 : 0 ≤ r.vol_regen) (hv3 : 0 < r.vol_hhx)
    (hdc : (r.ws_vol_fn t).1.deriv = -q) (hde : (r.ws_vol_fn t).2.deriv = q)
    (hpc : r.ws_parasitics.comp.thermal = 0) (hpe : r.ws_parasitics.exp.thermal = 0) :
    s.dP_dt = 0 ∧ s.m_dot_ck * (cp * T - (u0 - h0)) = cp * y.P * q / R ∧
      s.dTc_dt * ((r.ws_vol_fn t).1.value * (cp * T - (u0 - h0))) = T * q * (u0 - h0) ∧
      s.dTe_dt * ((r.ws_vol_fn t).2.value * (cp * T - (u0 - h0))) = -(T * q * (u0 - h0)) := by
  have hR := hg.R_pos
  obtain ⟨i1, i2⟩ := C105_inflow hg hs (by rw [hTc]; exact hT.ne') (by rw [hTe]; exact hT.ne')
  obtain ⟨b1, -, b3, -, b5, -, b7, -, b9, -⟩ := hs
  simp only [compMass, chxMass, regenMass, hhxMass, expMass, massRate, Run.calculate_inputs,
    Run.comp_inputs, Run.chx_inputs, Run.regen_inputs, Run.hhx_inputs, Run.exp_inputs, hg.dens, hg.dd_dP_T, hg.dd_dT_P, hTc, hTe, hk, hr, hl,
    hdc, hde] at b1 b3 b5 b7 b9
  rw [hTc, hk, hdc, hpc, ite_self] at i1
  rw [hTe, hl, hde, hpe, ite_self] at i2
  set A := cp * T - (u0 - h0) with hA
  have hA0 : 0 < A := by rw [hA]; linarith
  have hd : s.dP_dt = 0 := by
    have c : (A * (1 / (R * T)) * (r.vol_chx + r.vol_regen + r.vol_hhx)
        + (cp - R) / R * ((r.ws_vol_fn t).1.value + (r.ws_vol_fn t).2.value)) * s.dP_dt = 0 := by
      have e1 : s.m_dot_ck - s.m_dot_le = (r.vol_chx + r.vol_regen + r.vol_hhx) * (1 / (R * T)) * s.dP_dt := by
        linear_combination -b3 - b5 - b7
      have e2 : A * (s.m_dot_le - s.m_dot_ck) = (cp - R) / R * ((r.ws_vol_fn t).1.value + (r.ws_vol_fn t).2.value) * s.dP_dt := by
        linear_combination i1 + i2
      linear_combination -A * e1 - e2
    refine (mul_eq_zero.1 c).resolve_left (ne_of_gt ?_)
    have p1 : 0 < A * (1 / (R * T)) * (r.vol_chx + r.vol_regen + r.vol_hhx) := by positivity
    have p2 : 0 ≤ (cp - R) / R * ((r.ws_vol_fn t).1.value + (r.ws_vol_fn t).2.value) :=
      mul_nonneg (div_nonneg (by linarith) hR.le) (by linarith)
    linarith
  rw [hd] at b1 b9 i1 i2
  have hR' := hR.ne'
  have hT' := hT.ne'
  have hP' := hP.ne'
  have m1 : s.m_dot_ck * A = cp * y.P * q / R := by linear_combination -i1
  have m2 : s.m_dot_le * A = cp * y.P * q / R := by linear_combination i2
  refine ⟨hd, m1, ?_, ?_⟩
  · have e : (r.ws_vol_fn t).1.value * s.dTc_dt * y.P = R * T ^ 2 * s.m_dot_ck - y.P * T * q := by
      field_simp at b1
      linear_combination -b1
    have : y.P * (s.dTc_dt * ((r.ws_vol_fn t).1.value * A)) = y.P * (T * q * (u0 - h0)) := by
      have m1' : R * (s.m_dot_ck * A) = cp * y.P * q := by rw [m1]; field_simp
      linear_combination A * e + T ^ 2 * m1' - y.P * T * q * hA
    exact mul_left_cancel₀ hP' this
  · have e : (r.ws_vol_fn t).2.value * s.dTe_dt * y.P = y.P * T * q - R * T ^ 2 * s.m_dot_le := by
      field_simp at b9
      linear_combination -b9
    have : y.P * (s.dTe_dt * ((r.ws_vol_fn t).2.value * A)) = y.P * -(T * q * (u0 - h0)) := by
      have m2' : R * (s.m_dot_le * A) = cp * y.P * q := by rw [m2]; field_simp
      linear_combination A * e - T ^ 2 * m2' + y.P * T * q * hA
    exact mul_left_cancel₀ hP' this

/-- **C105**, the crate's helium, pushed at one temperature and constant pressure: the space it leaves warms up, the space it enters
cools down, and more gas passes than the piston displaces. -/
theorem C105_helium_pushed (hf : r.fluid = (IdealGas.helium : IdealGas ℝ).toFluid) {t : ℝ} {y : Conditions ℝ} {s : Solution ℝ}
    (hs : Obeys r t y s) {T q : ℝ} (hT : 100 ≤ T) (hq : 0 < q) (hP : 0 < y.P) (hTc : y.T_c = T) (hTe : y.T_e = T) (hk : r.temp.chx = T)
    (hr : r.temp.regen.avg = T) (hl : r.temp.hhx = T)
    (hVc : 0 < (r.ws_vol_fn t).1.value) (hVe : 0 < (r.ws_vol_fn t).2.value) (hv1 : 0 ≤ r.vol_chx) (hv2 : 0 ≤ r.vol_regen) (hv3 : 0 < r.vol_hhx)
    (hdc : (r.ws_vol_fn t).1.deriv = -q) (hde : (r.ws_vol_fn t).2.deriv = q)
    (hpc : r.ws_parasitics.comp.thermal = 0) (hpe : r.ws_parasitics.exp.thermal = 0) :
    s.dP_dt = 0 ∧ 0 < s.dTc_dt ∧ s.dTe_dt < 0 ∧ r.fluid.dens T y.P * q < s.m_dot_ck := by
  have hg := helium_perfect
  rw [← hf] at hg
  obtain ⟨h1, h2, h3, h4⟩ := C105_pushed hg (by norm_num) hs (by linarith) (by linarith) hP hTc hTe hk hr hl hVc hVe hv1 hv2 hv3 hdc hde
    hpc hpe
  have hA : (0 : ℝ) < 5193.17 * T - (-((5193.17 - 2077.23) * 250) - -(5193.17 * 250)) := by linarith
  have hw : (0 : ℝ) < -((5193.17 - 2077.23) * 250) - -(5193.17 * 250) := by norm_num
  have hT0 : 0 < T := by linarith
  refine ⟨h1, ?_, ?_, ?_⟩
  · by_contra hn
    have := mul_nonpos_of_nonpos_of_nonneg (not_lt.1 hn) (mul_pos hVc hA).le
    have := mul_pos (mul_pos hT0 hq) hw
    linarith
  · by_contra hn
    have := mul_nonneg (not_lt.1 hn) (mul_pos hVe hA).le
    have := mul_pos (mul_pos hT0 hq) hw
    linarith
  · rw [hg.dens]
    by_contra hn
    have h5 := mul_le_mul_of_nonneg_right (not_lt.1 hn) hA.le
    rw [h2] at h5
    have h6 : y.P / (2077.23 * T) * q * (5193.17 * T - (-((5193.17 - 2077.23) * 250) - -(5193.17 * 250)))
        = 5193.17 * y.P * q / 2077.23 - y.P / (2077.23 * T) * q * (-((5193.17 - 2077.23) * 250) - -(5193.17 * 250)) := by
      field_simp
    have h7 : 0 < y.P / (2077.23 * T) * q * (-((5193.17 - 2077.23) * 250) - -(5193.17 * 250)) := by positivity
    linarith

end

end Sett
