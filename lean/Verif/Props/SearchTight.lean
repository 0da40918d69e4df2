import Verif.Props.SearchSucceeds

/-! # C59, tightness: three matrix solves are not always enough -/

namespace Sett

open Spec state_equations

namespace FourSolves

/-- A helium engine at one instant: both pistons moving inwards. -/
noncomputable def run (U : MatrixDecomposition ℝ) : Run ℝ where
  enth_norm := 1000000
  fluid := (IdealGas.new .Helium).toFluid
  period := 1
  pres := Pressure.constant 1000
  solver := U
  temp := { sink := 280, chx := 300, regen := { cold := 310, avg := 600, hot := 990 }
            hhx := 1000, source := 1020 }
  vol_chx := 2
  vol_hhx := 1
  vol_regen := 4
  ws_parasitics := { comp := ⟨0, 0, 0⟩, exp := ⟨0, 0, 0⟩ }
  ws_vol_fn := fun _ => ({ value := 10, deriv := -6 }, { value := 5, deriv := -2 })

noncomputable def y : Conditions ℝ := { P := 1000, T_c := 500, T_e := 800 }

theorem physical (U : MatrixDecomposition ℝ) : Physical (run U) 0 y 100 := by
  constructor <;> norm_num [run, y]

noncomputable def inputs : Inputs ℝ := (run fun _ _ => none).calculate_inputs 0 y

def nnnn : FlowDirection := ⟨.Negative, .Negative, .Negative, .Negative⟩
def pppp : FlowDirection := ⟨.Positive, .Positive, .Positive, .Positive⟩
def pppn : FlowDirection := ⟨.Positive, .Positive, .Positive, .Negative⟩
def ppnn : FlowDirection := ⟨.Positive, .Positive, .Negative, .Negative⟩

/-- What the balances say about the flows for face temperatures `a` and `b` at the two end faces. -/
theorem flows {h : Faces} {s : Solution ℝ} (a b : ℝ) (ha : h.ck = 5193.17 * (a - 250))
    (hb : h.le = 5193.17 * (b - 250)) (hs : Balances inputs h s) :
    (a * 5193.17 - 250 * 2077.23) * s.m_dot_ck * 2077.23 = 10 * (5193.17 * 600 - 3115.94 * s.dP_dt) ∧
    (b * 5193.17 - 250 * 2077.23) * s.m_dot_le * 2077.23 = 5 * (3115.94 * s.dP_dt - 5193.17 * 400) ∧
    s.m_dot_kr * 2077.23 = s.m_dot_ck * 2077.23 - 2 / 300 * s.dP_dt ∧
    s.m_dot_rl * 2077.23 = s.m_dot_kr * 2077.23 - 4 / 600 * s.dP_dt ∧
    s.m_dot_le * 2077.23 = s.m_dot_rl * 2077.23 - 1 / 1000 * s.dP_dt := by
  have h1 := comp_eliminated hs
  have h2 := exp_eliminated hs
  have h3 := hs.chx_mass
  have h4 := hs.regen_mass
  have h5 := hs.hhx_mass
  have hR : (IdealGas.new .Helium : IdealGas ℝ).gas_constant = 2077.23 := by
    simp only [IdealGas.new, IdealGas.parameters]
  have hT : (IdealGas.new .Helium : IdealGas ℝ).ref_temp = 250 := by
    simp only [IdealGas.new, IdealGas.parameters]; norm_num
  have hcp : ∀ T P, (IdealGas.new .Helium : IdealGas ℝ).cp T P = 5193.17 := IdealGas.helium_cp
  have he : ∀ T P, (IdealGas.new .Helium : IdealGas ℝ).enth T P = 5193.17 * (T - 250) :=
    IdealGas.helium_enth
  simp only [inputs, run, y, chxMass, regenMass, hhxMass, massRate, tempCoef, stability,
    Run.calculate_inputs, Run.comp_inputs, Run.chx_inputs, Run.regen_inputs, Run.hhx_inputs,
    Run.exp_inputs, IdealGas.toFluid, IdealGas.dens, IdealGas.dd_dP_T, IdealGas.dd_dT_P,
    IdealGas.du_dP_T, IdealGas.du_dT_P, IdealGas.inte, powi2, hR, hT, hcp, he, ha, hb] at h1 h2 h3 h4 h5
  norm_num at h1 h2 h3 h4 h5
  refine ⟨by linarith, by linarith, by linarith, by linarith, by linarith⟩

/-- Every solve of these inputs succeeds, with a solution of the balances of its direction. -/
theorem step {T : MatrixDecomposition ℝ} (hT : Sound T) (hc : Complete T) (d : FlowDirection) :
    ∃ s, (System.new inputs).solve T d = some s ∧ Balances inputs (facesFor inputs d) s := by
  have hp := physical fun _ _ => none
  have hu := (C10_unique_iff inputs hp.norm d).2
    (C57_stable_det_pos inputs (C58_ideal_gas_stable _ .Helium rfl 0 y hp) d).ne'
  obtain ⟨x, hx⟩ := Option.isSome_iff_exists.1 (hc _ _ hu)
  exact ⟨Solution.ofVec x, by simp [System.solve, hx],
    (C04_system_iff_balances inputs hp.norm d x).1 (hT _ _ _ hx)⟩

theorem faces (d : FlowDirection) :
    (d.ck = .Positive → (facesFor inputs d).ck = 5193.17 * (500 - 250)) ∧
    (d.ck = .Negative → (facesFor inputs d).ck = 5193.17 * (300 - 250)) ∧
    (d.le = .Positive → (facesFor inputs d).le = 5193.17 * (1000 - 250)) ∧
    (d.le = .Negative → (facesFor inputs d).le = 5193.17 * (800 - 250)) := by
  have he : ∀ T P, (IdealGas.new .Helium : IdealGas ℝ).enth T P = 5193.17 * (T - 250) :=
    IdealGas.helium_enth
  refine ⟨?_, ?_, ?_, ?_⟩ <;> intro h <;>
    simp only [facesFor, h, faceFor, inputs, run, y, Run.calculate_inputs, Run.comp_inputs,
      Run.chx_inputs, Run.hhx_inputs, Run.exp_inputs, IdealGas.toFluid, he]

theorem dir_pos {x : ℝ} (h : 0 ≤ x) : Direction.from_value x = .Positive := by
  norm_num [Direction.from_value, h]

theorem dir_neg {x : ℝ} (h : x < 0) : Direction.from_value x = .Negative := by
  norm_num [Direction.from_value, h]

theorem next_nnnn {s : Solution ℝ} (hs : Balances inputs (facesFor inputs nnnn) s) :
    FlowDirection.from_solution s = pppp := by
  obtain ⟨h1, h2, h3, h4, h5⟩ := flows 300 800 ((faces nnnn).2.1 rfl) ((faces nnnn).2.2.2 rfl) hs
  have a1 : 0 ≤ s.m_dot_ck := by linarith
  have a2 : 0 ≤ s.m_dot_kr := by linarith
  have a3 : 0 ≤ s.m_dot_rl := by linarith
  have a4 : 0 ≤ s.m_dot_le := by linarith
  simp only [FlowDirection.from_solution, dir_pos a1, dir_pos a2, dir_pos a3, dir_pos a4, pppp]

theorem next_pppp {s : Solution ℝ} (hs : Balances inputs (facesFor inputs pppp) s) :
    FlowDirection.from_solution s = pppn := by
  obtain ⟨h1, h2, h3, h4, h5⟩ := flows 500 1000 ((faces pppp).1 rfl) ((faces pppp).2.2.1 rfl) hs
  have a1 : 0 ≤ s.m_dot_ck := by linarith
  have a2 : 0 ≤ s.m_dot_kr := by linarith
  have a3 : 0 ≤ s.m_dot_rl := by linarith
  have a4 : s.m_dot_le < 0 := by linarith
  simp only [FlowDirection.from_solution, dir_pos a1, dir_pos a2, dir_pos a3, dir_neg a4, pppn]

theorem next_pppn {d : FlowDirection} (hd : d.ck = .Positive ∧ d.le = .Negative) {s : Solution ℝ}
    (hs : Balances inputs (facesFor inputs d) s) : FlowDirection.from_solution s = ppnn := by
  obtain ⟨h1, h2, h3, h4, h5⟩ := flows 500 800 ((faces d).1 hd.1) ((faces d).2.2.2 hd.2) hs
  have a1 : 0 ≤ s.m_dot_ck := by linarith
  have a2 : 0 ≤ s.m_dot_kr := by linarith
  have a3 : s.m_dot_rl < 0 := by linarith
  have a4 : s.m_dot_le < 0 := by linarith
  simp only [FlowDirection.from_solution, dir_pos a1, dir_pos a2, dir_neg a3, dir_neg a4, ppnn]

end FourSolves

/-- **C59**, tightness: there is a helium engine at a physical state and a hint for which every sound and
complete decomposition is called four times; with one update less the search would give up. -/
theorem C59_four_needed : ∃ (r : MatrixDecomposition ℝ → Run ℝ) (y : Conditions ℝ) (hint : FlowDirection),
    ∀ U, Sound U → Complete U → (r U).fluid = (IdealGas.new .Helium).toFluid ∧ (r U).solver = U ∧
      Physical (r U) 0 y 100 ∧ (solveLogged U ((r U).calculate_inputs 0 y) hint).2.length = 4 ∧
      ∀ fuel < 4, (solveLoop U (System.new ((r U).calculate_inputs 0 y)) fuel hint).1
        = .error .flow_directions := by
  refine ⟨FourSolves.run, FourSolves.y, FourSolves.nnnn, fun U hU hc => ⟨rfl, rfl, FourSolves.physical U, ?_⟩⟩
  have hin : (FourSolves.run U).calculate_inputs 0 FourSolves.y = FourSolves.inputs := rfl
  rw [hin]
  obtain ⟨s0, e0, b0⟩ := FourSolves.step hU hc FourSolves.nnnn
  obtain ⟨s1, e1, b1⟩ := FourSolves.step hU hc FourSolves.pppp
  obtain ⟨s2, e2, b2⟩ := FourSolves.step hU hc FourSolves.pppn
  obtain ⟨s3, e3, b3⟩ := FourSolves.step hU hc FourSolves.ppnn
  have n0 := FourSolves.next_nnnn b0
  have n1 := FourSolves.next_pppp b1
  have n2 := FourSolves.next_pppn ⟨rfl, rfl⟩ b2
  have n3 := FourSolves.next_pppn ⟨rfl, rfl⟩ b3
  have d0 : FourSolves.nnnn ≠ FourSolves.pppp := by decide
  have d1 : FourSolves.pppp ≠ FourSolves.pppn := by decide
  have d2 : FourSolves.pppn ≠ FourSolves.ppnn := by decide
  constructor
  · simp only [solveLogged, ALLOWED_FLOW_UPDATES, solveLoop, e0, e1, e2, e3, n0, n1, n2, n3, if_neg d0,
      if_neg d1, if_neg d2, if_true, List.length_cons, List.length_nil]
  · intro fuel hf
    interval_cases fuel <;>
      simp only [solveLoop, e0, e1, e2, n0, n1, n2, if_neg d0, if_neg d1, if_neg d2]

end Sett
