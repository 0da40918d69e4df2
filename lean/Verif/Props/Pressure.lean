import Verif.Props.TrajectoryExample

/-! # C61: the pressure along a cycle is determined by temperatures and volumes

`Integration::is_converged` looks at the two temperatures only and the next iteration starts from a fixed
pressure; this is why that is enough. -/

namespace Sett

open Spec state_equations

theorem gasMass_eq {r : Run ℝ} {n : GasName} (hf : r.fluid = (IdealGas.new n).toFluid)
    (y : ℝ → Conditions ℝ) (t : ℝ) :
    gasMass r y t = (y t).P * volumePerTemp r y t / (IdealGas.new n : IdealGas ℝ).gas_constant := by
  simp only [gasMass, compGas, expGas, volumePerTemp, hf, IdealGas.toFluid, IdealGas.dens,
    div_eq_mul_inv, mul_inv]
  ring

section

variable (U : MatrixDecomposition ℝ) (hU : Sound U) (c : Components ℝ) (hdrive : ExactDrive c.ws)
  (state : State ℝ) (n : GasName) (hfluid : state.fluid = (IdealGas.new n).toFluid)
  (y : ℝ → Conditions ℝ) (a b : ℝ) (hy : Regular y a b)
  (hode : ∀ t ∈ Set.Ico a b, ∃ s, Follows (Run.new U c state) y t s)

include hU hdrive hfluid hy hode

/-- **C61.** Along an exact trajectory `P Σ V/T` is constant. -/
theorem C61_pressure_law (t : ℝ) (ht : t ∈ Set.Icc a b) :
    (y t).P * volumePerTemp (Run.new U c state) y t
      = (y a).P * volumePerTemp (Run.new U c state) y a := by
  have h := C55_total_mass_constant U hU c hdrive state n hfluid y a b hy hode t ht
  rw [gasMass_eq (r := Run.new U c state) hfluid, gasMass_eq (r := Run.new U c state) hfluid] at h
  have hR := (IdealGas.gas_constant_pos n).ne'
  field_simp at h
  exact h

/-- **C61**, positivity: a positive pressure stays positive as long as the volumes and temperatures do. -/
theorem C61_pressure_positive (hP : 0 < (y a).P)
    (hS : ∀ t ∈ Set.Icc a b, 0 < volumePerTemp (Run.new U c state) y t) (t : ℝ) (ht : t ∈ Set.Icc a b) :
    0 < (y t).P := by
  have h := C61_pressure_law U hU c hdrive state n hfluid y a b hy hode t ht
  have h0 := hS a ⟨le_refl a, ht.1.trans ht.2⟩
  exact (pos_iff_pos_of_mul_pos (h ▸ mul_pos hP h0)).2 (hS t ht)

/-- **C61**, closing: if after an interval both space temperatures are back (within a factor `1 + ε`), and
so are the volumes, then the pressure is back within the same factor.  With `ε = 0` it is back exactly. -/
theorem C61_pressure_closes (hab : a ≤ b) (hP : 0 < (y a).P)
    (hvol : (c.ws.volumes state.ws b).1.value = (c.ws.volumes state.ws a).1.value ∧
      (c.ws.volumes state.ws b).2.value = (c.ws.volumes state.ws a).2.value)
    (hVc : 0 < (c.ws.volumes state.ws a).1.value) (hVe : 0 < (c.ws.volumes state.ws a).2.value)
    (hk : 0 ≤ c.chx.volume / state.temp.chx) (hr : 0 ≤ c.regen.volume / state.temp.regen.avg)
    (hl : 0 ≤ c.hhx.volume / state.temp.hhx) (ε : ℝ) (hε : 0 ≤ ε)
    (hTc : (y b).T_c ≤ (1 + ε) * (y a).T_c ∧ (y a).T_c ≤ (1 + ε) * (y b).T_c)
    (hTe : (y b).T_e ≤ (1 + ε) * (y a).T_e ∧ (y a).T_e ≤ (1 + ε) * (y b).T_e) :
    (y b).P ≤ (1 + ε) * (y a).P ∧ (y a).P ≤ (1 + ε) * (y b).P := by
  have hmem : b ∈ Set.Icc a b := ⟨hab, le_refl b⟩
  have hmem' : a ∈ Set.Icc a b := ⟨le_refl a, hab⟩
  have h := C61_pressure_law U hU c hdrive state n hfluid y a b hy hode b hmem
  have p1 := hy.comp_pos b hmem
  have p2 := hy.exp_pos b hmem
  have p3 := hy.comp_pos a hmem'
  have p4 := hy.exp_pos a hmem'
  have hq : ∀ V T T' : ℝ, 0 < V → 0 < T → 0 < T' → T ≤ (1 + ε) * T' → V / T' ≤ (1 + ε) * (V / T) := by
    intro V T T' hV hT hT' hle
    rw [mul_div_assoc', div_le_div_iff₀ hT' hT]
    nlinarith
  have key : ∀ s s' : ℝ, volumePerTemp (Run.new U c state) y s
      = (c.ws.volumes state.ws a).1.value / (y s).T_c + c.chx.volume / state.temp.chx
        + c.regen.volume / state.temp.regen.avg + c.hhx.volume / state.temp.hhx
        + (c.ws.volumes state.ws a).2.value / (y s).T_e →
      volumePerTemp (Run.new U c state) y s'
      = (c.ws.volumes state.ws a).1.value / (y s').T_c + c.chx.volume / state.temp.chx
        + c.regen.volume / state.temp.regen.avg + c.hhx.volume / state.temp.hhx
        + (c.ws.volumes state.ws a).2.value / (y s').T_e →
      0 < (y s).T_c → 0 < (y s').T_c → 0 < (y s).T_e → 0 < (y s').T_e →
      (y s').T_c ≤ (1 + ε) * (y s).T_c → (y s').T_e ≤ (1 + ε) * (y s).T_e →
      volumePerTemp (Run.new U c state) y s ≤ (1 + ε) * volumePerTemp (Run.new U c state) y s' := by
    intro s s' e1 e2 q1 q2 q3 q4 l1 l2
    have g1 := hq _ _ _ hVc q2 q1 l1
    have g2 := hq _ _ _ hVe q4 q3 l2
    have g3 := mul_nonneg hε hk
    have g4 := mul_nonneg hε hr
    have g5 := mul_nonneg hε hl
    rw [e1, e2]
    nlinarith
  have eb : volumePerTemp (Run.new U c state) y b
      = (c.ws.volumes state.ws a).1.value / (y b).T_c + c.chx.volume / state.temp.chx
        + c.regen.volume / state.temp.regen.avg + c.hhx.volume / state.temp.hhx
        + (c.ws.volumes state.ws a).2.value / (y b).T_e := by
    rw [← hvol.1, ← hvol.2]; rfl
  have h1 := key a b rfl eb p3 p1 p4 p2 hTc.1 hTe.1
  have h2 := key b a eb rfl p1 p3 p2 p4 hTc.2 hTe.2
  have hSa : 0 < volumePerTemp (Run.new U c state) y a := by
    have g1 := div_pos hVc p3
    have g2 := div_pos hVe p4
    show 0 < (c.ws.volumes state.ws a).1.value / (y a).T_c + c.chx.volume / state.temp.chx
        + c.regen.volume / state.temp.regen.avg + c.hhx.volume / state.temp.hhx
        + (c.ws.volumes state.ws a).2.value / (y a).T_e
    linarith
  have hSb : 0 < volumePerTemp (Run.new U c state) y b := by
    have g1 := div_pos hVc p1
    have g2 := div_pos hVe p2
    rw [eb]; linarith
  have hPb : 0 < (y b).P := (pos_iff_pos_of_mul_pos (h ▸ mul_pos hP hSa)).2 hSb
  constructor
  · refine le_of_mul_le_mul_right ?_ hSb
    calc (y b).P * volumePerTemp (Run.new U c state) y b
        = (y a).P * volumePerTemp (Run.new U c state) y a := h
      _ ≤ (y a).P * ((1 + ε) * volumePerTemp (Run.new U c state) y b) :=
          mul_le_mul_of_nonneg_left h1 hP.le
      _ = _ := by ring
  · refine le_of_mul_le_mul_right ?_ hSa
    calc (y a).P * volumePerTemp (Run.new U c state) y a
        = (y b).P * volumePerTemp (Run.new U c state) y b := h.symm
      _ ≤ (y b).P * ((1 + ε) * volumePerTemp (Run.new U c state) y a) :=
          mul_le_mul_of_nonneg_left h2 hPb.le
      _ = _ := by ring

end

/-- **C12 / C14**, for the engine: over one period of the run the volumes repeat.  The period is the one the
cycle is integrated over. -/
theorem C12_run_period (U : MatrixDecomposition ℝ) (c : Components ℝ) (state : State ℝ)
    (d : ws.SinusoidalDrive ℝ) (hd : c.ws = d.toWorkingSpaces) (hf : d.frequency ≠ 0) (t : ℝ) :
    (Run.new U c state).ws_vol_fn (t + (Run.new U c state).toCycle.period)
      = (Run.new U c state).ws_vol_fn t := by
  have h := ws.C12_sinusoidal_reported_period d hf state.ws t
  simp only [Run.new, Run.toCycle, hd] at h ⊢
  scalars
  exact h

theorem C14_run_period (U : MatrixDecomposition ℝ) (c : Components ℝ) (state : State ℝ)
    (d : ws.RhombicDrive ℝ) (hd : c.ws = d.toWorkingSpaces) (hf : d.frequency ≠ 0) (t : ℝ) :
    (Run.new U c state).ws_vol_fn (t + (Run.new U c state).toCycle.period)
      = (Run.new U c state).ws_vol_fn t := by
  have h := ws.C14_rhombic_reported_period d hf state.ws t
  simp only [Run.new, Run.toCycle, hd] at h ⊢
  scalars
  exact h

namespace TrajectoryExample

/-- The adiabatic trajectory: pressure in terms of volume and temperature, and closing after a period. -/
example (t : ℝ) (ht : t ∈ Set.Icc 0 1) :
    (y t).P * volumePerTemp run y t = (y 0).P * volumePerTemp run y 0 :=
  C61_pressure_law BalanceExample.exact BalanceExample.exact_sound components (exactDrive_sinusoidal drive) state .Helium
    rfl y 0 1 (regular 0 1) (fun t _ => ⟨sol t, follows t⟩) t ht

example (t : ℝ) (ht : t ∈ Set.Icc 0 1) : 0 < (y t).P :=
  C61_pressure_positive BalanceExample.exact BalanceExample.exact_sound components
    (exactDrive_sinusoidal drive) state .Helium rfl y 0 1 (regular 0 1) (fun t _ => ⟨sol t, follows t⟩)
    (physical 0).pres (fun t _ => by
      have hc := div_pos (physical t).comp_vol (lt_of_lt_of_le (by norm_num) (physical t).comp_temp)
      have he := div_pos (physical t).exp_vol (lt_of_lt_of_le (by norm_num) (physical t).exp_temp)
      have h0 : run.vol_chx / run.temp.chx = 0 ∧ run.vol_regen / run.temp.regen.avg = 0
        ∧ run.vol_hhx / run.temp.hhx = 0 := by
        refine ⟨?_, ?_, ?_⟩ <;> exact zero_div _
      show 0 < (run.ws_vol_fn t).1.value / (y t).T_c + run.vol_chx / run.temp.chx
        + run.vol_regen / run.temp.regen.avg + run.vol_hhx / run.temp.hhx
        + (run.ws_vol_fn t).2.value / (y t).T_e
      rw [h0.1, h0.2.1, h0.2.2]
      linarith) t ht

/-- One period of it, with `ε = 0`. -/
example : (y 1).P = (y 0).P := by
  have hper : drive.volumes 1 = drive.volumes 0 := by
    have := ws.C12_sinusoidal_periodic drive (by norm_num [drive]) 0
    simpa [drive] using this
  have hT : T 1 = T 0 := by simp only [T, V, hper]
  have h := C61_pressure_closes BalanceExample.exact BalanceExample.exact_sound components
    (exactDrive_sinusoidal drive) state .Helium rfl y 0 1 (regular 0 1) (fun t _ => ⟨sol t, follows t⟩)
    zero_le_one (physical 0).pres
    ⟨congrArg (fun v => v.1.value) hper, congrArg (fun v => v.2.value) hper⟩
    (physical 0).comp_vol (physical 0).exp_vol (zero_div (340 : ℝ)).ge (zero_div (600 : ℝ)).ge
    (zero_div (860 : ℝ)).ge 0 le_rfl
    ⟨by show T 1 ≤ (1 + 0) * T 0; linarith, by show T 0 ≤ (1 + 0) * T 1; linarith⟩
    ⟨by show T 1 ≤ (1 + 0) * T 0; linarith, by show T 0 ≤ (1 + 0) * T 1; linarith⟩
  linarith [h.1, h.2]

end TrajectoryExample
end Sett
