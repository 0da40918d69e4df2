import Verif.Spec.Sane
import Verif.Spec.Kin
import Verif.Model.Api

/-! # Specification: exchangers whose approach settles, and engines with another drive -/

namespace Sett.Spec

/-- Approaches of an engine at rest.  As heat and mass flows go to zero (staying positive), the approach of each of the
three exchangers goes to the given one, for heat capacities and temperature differences up to any given bound. -/
structure Settling (c : Components ℝ) (a : Approach ℝ) : Prop where
  chx : ∀ ε, 0 < ε → ∃ η, 0 < η ∧ ∀ s : chx.State ℝ, 0 < s.hxr.cp → 0 < s.hxr.m_dot → |s.hxr.Q_dot| ≤ η →
    |c.chx.approach s - a.chx| ≤ ε
  regen : ∀ K ε, 0 < K → 0 < ε → ∃ η, 0 < η ∧ ∀ s : regen.State ℝ, 0 < s.hxr.cp → s.hxr.cp ≤ K → 0 < s.hxr.m_dot →
    s.hxr.m_dot ≤ η → |s.temp_hhx - s.temp_chx| ≤ K → |c.regen.approach s - a.regen| ≤ ε
  hhx : ∀ ε, 0 < ε → ∃ η, 0 < η ∧ ∀ s : hhx.State ℝ, 0 < s.hxr.cp → 0 < s.hxr.m_dot → |s.hxr.Q_dot| ≤ η →
    |c.hhx.approach s - a.hhx| ≤ ε

/-- With these approaches both exchangers are above 100 K, the effective ends of the regenerator are different positive
temperatures, and its sides are not at absolute zero. -/
structure WarmApproach (i : RunInputs ℝ) (a : Approach ℝ) : Prop where
  chx : 100 < i.temp_sink + a.chx
  hhx : 100 < i.temp_source - a.hhx
  cold_end : 0 < i.temp_sink + a.chx + a.regen / 2
  hot_end : 0 < i.temp_source - a.hhx - a.regen / 2
  differ : i.temp_sink + a.chx + a.regen / 2 ≠ i.temp_source - a.hhx - a.regen / 2
  cold_side : i.temp_sink + a.chx + a.regen ≠ 0
  hot_side : i.temp_source - a.hhx - a.regen ≠ 0

/-- `c'` is the engine `c` with another drive: same exchangers, parasitics and walls; volumes and frequency do not depend
on the pressures. -/
structure Redriven (c c' : Components ℝ) : Prop where
  chx_vol : c'.chx.volume = c.chx.volume
  chx_approach : ∀ s, c'.chx.approach s = c.chx.approach s
  chx_initial : c'.chx.initial_approach = c.chx.initial_approach
  regen_vol : c'.regen.volume = c.regen.volume
  regen_approach : ∀ s, c'.regen.approach s = c.regen.approach s
  regen_initial : c'.regen.initial_approach = c.regen.initial_approach
  hhx_vol : c'.hhx.volume = c.hhx.volume
  hhx_approach : ∀ s, c'.hhx.approach s = c.hhx.approach s
  hhx_initial : c'.hhx.initial_approach = c.hhx.initial_approach
  parasitics : ∀ q q', c'.ws.parasitics q = c.ws.parasitics q'
  walls : ∀ q q', c'.ws.thermal_resistance q = c.ws.thermal_resistance q'
  frequency : ∀ q q', c'.ws.frequency q = c'.ws.frequency q'
  volumes : ∀ q q', c'.ws.volumes q = c'.ws.volumes q'

/-- Approaches assumed before anything is known about the flows. -/
def initialApproach (c : Components ℝ) : Approach ℝ :=
  ⟨c.chx.initial_approach, c.regen.initial_approach, c.hhx.initial_approach⟩

/-- What an exchanger configuration says about its approach: what is assumed before the flows are known, and what is left
when they vanish. -/
noncomputable def chxApproach : chx.Config ℝ → ℝ × ℝ
  | .FixedApproach p => (p.DT, p.DT)
  | _ => (10, 0)
@[inherit_doc chxApproach]
noncomputable def regenApproaches : regen.Config ℝ → ℝ × ℝ
  | .FixedApproach p => (p.DT, p.DT)
  | _ => (10, 0)
@[inherit_doc chxApproach]
noncomputable def hhxApproach : hhx.Config ℝ → ℝ × ℝ
  | .FixedApproach p => (p.DT, p.DT)
  | _ => (10, 0)

/-- The exchanger is one of the two kinds the crate can build, of a volume that is not negative and, if it has a conductance, of
a positive one. -/
inductive ChxConducts : chx.Config ℝ → Prop
  | approach (p : chx.FixedApproach.Config ℝ) (vol : 0 ≤ p.vol) : ChxConducts (.FixedApproach p)
  | conductance (p : chx.FixedConductance.Config ℝ) (vol : 0 ≤ p.vol) (UA : 0 < p.UA) : ChxConducts (.FixedConductance p)
@[inherit_doc ChxConducts]
inductive RegenConducts : regen.Config ℝ → Prop
  | approach (p : regen.FixedApproach.Config ℝ) (vol : 0 ≤ p.vol) : RegenConducts (.FixedApproach p)
  | conductance (p : regen.FixedConductance.Config ℝ) (vol : 0 ≤ p.vol) (UA : 0 < p.UA) : RegenConducts (.FixedConductance p)
@[inherit_doc ChxConducts]
inductive HhxConducts : hhx.Config ℝ → Prop
  | approach (p : hhx.FixedApproach.Config ℝ) (vol : 0 ≤ p.vol) : HhxConducts (.FixedApproach p)
  | conductance (p : hhx.FixedConductance.Config ℝ) (vol : 0 ≤ p.vol) (UA : 0 < p.UA) : HhxConducts (.FixedConductance p)

end Sett.Spec
