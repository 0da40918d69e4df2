import Verif.Props.FlowLossRuns

/-! # C109: between the two, flow resistance does nothing at all -/

namespace Sett

open Spec

/-- **C109**, neither.  A configuration whose sinusoidal pistons move in phase and sweep equal volumes: whatever the gas, the
exchangers, their flow resistances, the linear solver and the integrator, a run that succeeds reports the ideal indicated power
as the indicated power. -/
theorem C109_run_engine_equal (env : Env ℝ) (lu : MatrixDecomposition ℝ) (c : Config ℝ) (p : ws.SinusoidalDrive.Config ℝ)
    (hp : c.engine.components.ws = .Sinusoidal p) (hphase : p.phase_angle = 0) (hV : p.V_swept_e = p.V_swept_c)
    (res : api.RunResults ℝ) (h : run_engine env lu c = .ok res) : res.power.indicated = res.power.ideal_indicated := by
  obtain ⟨-, x, g, e, hx, he, hr⟩ := C50_ok_only_if_run_ok env lu c res h
  obtain ⟨n, vs, s', -, -, -, h4, h5, -⟩ := (C36_ok_iff env lu x _ _ _ e).1 he
  have key := C42_pressure_drop_loss e vs h4 res hr
  have b1 : Spec.BuildsWs c.engine.components.ws x.ws := hx.1
  rw [hp] at b1
  have hd : ∀ t, dVc e t - dVe e t = 0 := by
    intro t
    simp only [dVc, dVe, h5]
    obtain ⟨yw, yk, yr, yl⟩ := x
    simp only at b1 ⊢
    cases b1 with
    | sinusoidal _ _ g1 g2 g3 g4 =>
    rw [g2]
    simp only [ws.SinusoidalDrive.volumes]
    scalars
    rw [hphase, hV]
    simp
  simp only [hd, mul_zero] at key
  have z : ∀ (xs : List ℝ) (vs : List (state_equations.Values ℝ)), trapezoid xs (vs.map fun _ => (0 : ℝ)) = 0 := by
    intro xs
    induction xs with
    | nil => intro vs; simp [trapezoid]
    | cons a xs ih =>
      intro vs
      cases xs with
      | nil => cases vs <;> simp [trapezoid]
      | cons b xs =>
        cases vs with
        | nil => simp [trapezoid]
        | cons v vs =>
          cases vs with
          | nil => simp [trapezoid]
          | cons w vs =>
            have := ih (w :: vs)
            simp only [List.map_cons] at this ⊢
            rw [trapezoid, this]
            ring
  rw [z, mul_zero] at key
  linarith

/-- C109: such runs exist; here with an obstacle in the cooler. -/
example : ∃ v, 0 < v ∧ ∀ a, 0 < a → a ≤ v → ∀ build,
    ∃ res, run_engine ⟨dopri5.solve 40, build⟩ lu.LU
      (withStroke WholeRunExample.throttled ⟨70, 0, 5e-4, 2e-5, 1, 0, 5e-4, 4e-5, 1, 0, 0⟩ a a) = .ok res ∧
      res.power.indicated = res.power.ideal_indicated := by
  have h30 : (30 : UInt32).toNat = 30 := by decide
  have h20 : (20 : UInt32).toNat = 20 := by decide
  obtain ⟨v, hv, h⟩ := C88_run_engine WholeRunExample.throttled _ _ _ WholeRunExample.throttled_sane _ rfl rfl
    (by norm_num [WholeRunExample.throttled]) (by norm_num [WholeRunExample.throttled])
    (by norm_num [WholeRunExample.throttled]) (by norm_num) (by norm_num) (by simp [WholeRunExample.throttled, h30])
    (by simp [WholeRunExample.throttled, h30]; norm_num)
    (by norm_num [WholeRunExample.throttled]) (by norm_num [WholeRunExample.throttled]) (by norm_num [WholeRunExample.throttled])
    (by norm_num [WholeRunExample.throttled]) (by simp [WholeRunExample.throttled, h20])
  refine ⟨v, hv, fun a ha ha' build => ?_⟩
  obtain ⟨res, hok⟩ := h a a ha.le ha' ha.le ha' 40 ⟨dopri5.solve 40, build⟩ rfl (by simp [WholeRunExample.throttled, h30])
  exact ⟨res, hok, C109_run_engine_equal _ _ _ _ rfl rfl rfl res hok⟩

end Sett
