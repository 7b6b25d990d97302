import Verif.Model.Aircraft
import Verif.Lemmas.Continuity

/-!
# Specification of C127

Neighbouring arguments of `Aircraft` (`runner/aircraft.py:14-124`) and convergence of all its attributes.
-/

namespace PySailing.Spec

open PySailing Filter Topology

variable {T : Type}

/-- The arguments `a t` have the panel numbers and the orientation of `a0` and tend to it: chord, span, angle of attack, free
stream (in any direction) and density. -/
structure NearWing (l : Filter T) (a : T → AircraftInput) (a0 : AircraftInput) : Prop where
  nc : ∀ t, (a t).nc = a0.nc
  ns : ∀ t, (a t).ns = a0.ns
  g : ∀ t, (a t).g = a0.g
  chord : Tendsto (fun t => (a t).chord) l (𝓝 a0.chord)
  half : Tendsto (fun t => (a t).half) l (𝓝 a0.half)
  aoa : Tendsto (fun t => (a t).aoaDeg) l (𝓝 a0.aoaDeg)
  V : Conv l (fun t => (a t).V) a0.V
  rho : Tendsto (fun t => (a t).rho) l (𝓝 a0.rho)

/-- All attributes of `w t` tend to those of `w0`. -/
structure ConvWing (l : Filter T) (w : T → Aircraft) (w0 : Aircraft) : Prop where
  lengths : ∀ᶠ t in l, (List.ofFn (w t).gamma).length = (List.ofFn w0.gamma).length
  gamma : ∀ k, Tendsto (fun t => (List.ofFn (w t).gamma).getD k 0) l (𝓝 ((List.ofFn w0.gamma).getD k 0))
  force : ∀ k, Conv l (fun t => (List.ofFn (w t).force).getD k 0) ((List.ofFn w0.force).getD k 0)
  pressure : ∀ k, Tendsto (fun t => (List.ofFn (w t).pressure).getD k 0) l (𝓝 ((List.ofFn w0.pressure).getD k 0))
  AR : Tendsto (fun t => (w t).AR) l (𝓝 w0.AR)
  CLTheoretical : Tendsto (fun t => (w t).CLTheoretical) l (𝓝 w0.CLTheoretical)
  CDTheoretical : Tendsto (fun t => (w t).CDTheoretical) l (𝓝 w0.CDTheoretical)
  CL : Tendsto (fun t => (w t).CL) l (𝓝 w0.CL)
  CD : Tendsto (fun t => (w t).CD) l (𝓝 w0.CD)
  Cp : Tendsto (fun t => (w t).Cp) l (𝓝 w0.Cp)

end PySailing.Spec
