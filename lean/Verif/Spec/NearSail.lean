import Verif.Spec.Sail
import Verif.Lemmas.Continuity
import Verif.Model.Wind

/-!
# Sails and winds that tend to a given sail and a given wind (C126)
-/

namespace PySailing.Spec

open PySailing Filter Topology

variable {T : Type}

/-- The sails `s t` (each with the twists of its rows) are well formed, have the mesh of the well-formed sail `s0` and tend to
it: mounting points, chords, camber and its position, twist, heel and leeway. -/
structure NearSail (l : Filter T) (s : T → SailInput × (ℕ → ℝ)) (s0 : SailInput × (ℕ → ℝ)) : Prop where
  ok : ∀ᶠ t in l, SailOk (s t).1 (s t).2
  ok0 : SailOk s0.1 s0.2
  nc : ∀ᶠ t in l, (s t).1.nc = s0.1.nc
  ns : ∀ᶠ t in l, (s t).1.ns = s0.1.ns
  tack : Conv l (fun t => (s t).1.tack) s0.1.tack
  head : Conv l (fun t => (s t).1.head) s0.1.head
  chords : ∀ r, Tendsto (fun t => (s t).1.chords.getD r 0) l (𝓝 (s0.1.chords.getD r 0))
  camber : ∀ r, Tendsto (fun t => (s t).1.camber.getD r 0) l (𝓝 (s0.1.camber.getD r 0))
  distance : ∀ r, Tendsto (fun t => (s t).1.distance.getD r 0) l (𝓝 (s0.1.distance.getD r 0))
  twist : ∀ r, Tendsto (fun t => (s t).2 r) l (𝓝 (s0.2 r))
  heel : Tendsto (fun t => (s t).1.csys.heelDeg) l (𝓝 s0.1.csys.heelDeg)
  leeway : Tendsto (fun t => (s t).1.csys.leewayDeg) l (𝓝 s0.1.csys.leewayDeg)

/-- An exponential profile at exactly its water level, where the speed may jump from 0 to an error. -/
def AtWaterLevel (P : WindProfile) (h : ℝ) : Prop := ∃ c ref wl, P = .exp c ref (some wl) ∧ h = wl

/-- The winds `w t` have the profile of `w0` and tend to it: direction, speed and speed of the yacht. -/
structure NearWind (l : Filter T) (w : T → WindObj) (w0 : WindObj) : Prop where
  profile : ∀ t, (w t).profile = w0.profile
  alpha : Tendsto (fun t => (w t).alphaDeg) l (𝓝 w0.alphaDeg)
  speed : Tendsto (fun t => (w t).twsRef) l (𝓝 w0.twsRef)
  yacht : Tendsto (fun t => (w t).vYacht) l (𝓝 w0.vYacht)

/-- The calculation for a set of sails: geometries, sail set, solver, `runner/sail.py:111-145`,
`runner/cli.py:65-67` (constructors only; the arguments of the sails are given). -/
noncomputable def calculateSails (ss : List SailInput) (nc ns : ℕ) (rho g : ℝ) (w : WindObj) : Py Vlm := do
  let sails ← ss.mapM sailGeometry
  let set ← sailSet sails
  vlm ⟨set.panels, nc, ns, rho, w, set.te, set.le, g⟩

end PySailing.Spec
