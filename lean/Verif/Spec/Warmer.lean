import Verif.Spec.SecondLaw

/-! # Specification: engines at other temperatures

All temperatures of an engine `k` times as high, everything else the same: a perfect gas exerts the same pressures with `1 / k`
of the gas, which carries the same heat. -/

namespace Sett.Spec

open state_equations

/-- A state of the gas with `k` times the temperatures. -/
noncomputable def warmer (k : ℝ) (y : Conditions ℝ) : Conditions ℝ := ⟨y.P, k * y.T_c, k * y.T_e⟩

/-- Flows, heats and rates at `k` times the temperatures. -/
noncomputable def warmerSolution (k : ℝ) (s : Solution ℝ) : Solution ℝ where
  m_dot_ck := s.m_dot_ck / k
  m_dot_kr := s.m_dot_kr / k
  m_dot_rl := s.m_dot_rl / k
  m_dot_le := s.m_dot_le / k
  Q_dot_k := s.Q_dot_k
  Q_dot_r := s.Q_dot_r
  Q_dot_l := s.Q_dot_l
  dTc_dt := k * s.dTc_dt
  dTe_dt := k * s.dTe_dt
  dP_dt := s.dP_dt

/-- The run of the same engine between temperatures `k` times as high. -/
structure WarmerRun (k : ℝ) (r r' : Run ℝ) : Prop where
  period : r'.period = r.period
  volumes : r'.ws_vol_fn = r.ws_vol_fn
  losses : r'.ws_parasitics = r.ws_parasitics
  vol_chx : r'.vol_chx = r.vol_chx
  vol_regen : r'.vol_regen = r.vol_regen
  vol_hhx : r'.vol_hhx = r.vol_hhx
  chx : r'.temp.chx = k * r.temp.chx
  hhx : r'.temp.hhx = k * r.temp.hhx
  cold : r'.temp.regen.cold = k * r.temp.regen.cold
  hot : r'.temp.regen.hot = k * r.temp.regen.hot
  avg : r'.temp.regen.avg = k * r.temp.regen.avg

/-- The ten balances at one instant, every interface with the enthalpy of the gas it lets pass. -/
def Obeys (r : Run ℝ) (t : ℝ) (y : Conditions ℝ) (s : Solution ℝ) : Prop :=
  Balances (r.calculate_inputs t y) (upwind (r.calculate_inputs t y) s) s

/-- Pressure and temperatures change as the balances say. -/
def MotionOf (r : Run ℝ) (y : ℝ → Conditions ℝ) (s : ℝ → Solution ℝ) (a b : ℝ) : Prop :=
  ∀ t ∈ Set.Ico a b, Obeys r t (y t) (s t) ∧ HasDerivWithinAt (fun t => (y t).P) (s t).dP_dt (Set.Ici t) t ∧
    HasDerivWithinAt (fun t => (y t).T_c) (s t).dTc_dt (Set.Ici t) t ∧
    HasDerivWithinAt (fun t => (y t).T_e) (s t).dTe_dt (Set.Ici t) t

end Sett.Spec
