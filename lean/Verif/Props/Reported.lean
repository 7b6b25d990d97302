import Verif.Props.Lattice

/-!
# The reported arrays of forces (C35)
-/

namespace PySailing.Props

open Spec

/-- **C35**, the arrays `force`, `lift`, `drag` of a `Vlm` object for any number of meshed sails, panel by
panel: Kutta-Joukowski forces of the same bound vortex, whose circulation is that of the panel's ring minus that
of the ring in front of it, in the total velocity, in the apparent wind and in the induced velocity. -/
theorem C35_reported (a : VlmInput) (r : Vlm) (h : vlm a = .ok r) (n : ℕ) (hnc : 0 < a.nc)
    (hns : 0 < a.ns) (hn : 0 < n) (hlen : a.panels.length = n * (a.nc * a.ns))
    (hle : a.le = leadingFlags a.nc a.ns n) (b i j : ℕ) (hb : b < n) (hi : i < a.nc) (hj : j < a.ns)
    (k : Fin r.vars.length) (hk : k.val = panelNo a.nc a.ns b i j) :
    ∃ Γ : ℝ, (i = 0 → Γ = r.out.gamma.getD k 0) ∧
      (0 < i → Γ = r.out.gamma.getD k 0 - r.out.gamma.getD (panelNo a.nc a.ns b (i - 1) j) 0) ∧
      r.out.vFsCp.getD k 0 = r.inlet.vAppInfs.getD k 0 + r.out.vIndCp.getD k 0 ∧
      r.out.force[k.val]? = some (a.rho • V3.cross (r.out.vFsCp.getD k 0)
        ((Γ * a.g) • ((r.vars[k]).ring.C - (r.vars[k]).ring.B))) ∧
      r.out.lift[k.val]? = some (a.rho • V3.cross (r.inlet.vAppInfs.getD k 0)
        ((Γ * a.g) • ((r.vars[k]).ring.C - (r.vars[k]).ring.B))) ∧
      r.out.drag[k.val]? = some (a.rho • V3.cross (r.out.vIndCp.getD k 0)
        ((Γ * a.g) • ((r.vars[k]).ring.C - (r.vars[k]).ring.B))) := by
  obtain ⟨rfl, -, hv, -, hs⟩ := (vlm_ok_iff a r).1 h
  obtain ⟨hw, -, hsol⟩ := (vlmCore_ok_iff _ _ _ _ _ _ _ _ _).1 hs
  obtain ⟨hl, -, hvk⟩ := calculateVlmVariables_ok hv
  have hK : r.vars.length = n * (r.input.nc * r.input.ns) := by rw [hl, hlen]
  obtain ⟨A, D, hAD⟩ := hvk k (by rw [← hl]; exact k.isLt)
  have hsp : (r.vars[k]).span = r.input.g • ((r.vars[k]).ring.C - (r.vars[k]).ring.B) := by
    have e := (List.getElem?_eq_some_iff.1 hAD).2
    simp only [Fin.getElem_fin, e]
    rfl
  have out1 : ∀ f : Fin r.vars.length → ℝ, ∀ q : Fin r.vars.length, (List.ofFn f).getD q 0 = f q := by
    intro f q; simp [List.getD_eq_getElem?_getD]
  have out2 : ∀ f : Fin r.vars.length → V3, ∀ q : Fin r.vars.length, (List.ofFn f).getD q 0 = f q := by
    intro f q; simp [List.getD_eq_getElem?_getD]
  have out3 : ∀ f : Fin r.vars.length → V3, (List.ofFn f)[k.val]? = some (f k) := by
    intro f; simp
  refine ⟨gammaForForce (fun i => r.input.le.getD i false) r.sol.gamma r.input.ns k, ?_, ?_, ?_, ?_, ?_, ?_⟩
  · intro h0
    subst h0
    rw [show r.out.gamma = List.ofFn r.sol.gamma from rfl, out1, hle]
    exact gammaForForce_first hK _ hb hi hj k hk
  · intro h0
    obtain ⟨i, rfl⟩ : ∃ m, i = m + 1 := ⟨i - 1, by omega⟩
    have hk' := hk
    rw [panelNo_pred] at hk'
    have hlt : panelNo r.input.nc r.input.ns b i j < r.vars.length := by have := k.isLt; omega
    rw [show r.out.gamma = List.ofFn r.sol.gamma from rfl, out1, hle, Nat.add_sub_cancel,
      out1 _ ⟨panelNo r.input.nc r.input.ns b i j, hlt⟩]
    exact gammaForForce_next hK _ hb hi hj k ⟨_, hlt⟩ hk rfl
  · rw [show r.out.vFsCp = List.ofFn r.sol.vFsCp from rfl, show r.out.vIndCp = List.ofFn r.sol.vIndCp from rfl,
      out2, out2, hsol]
    rfl
  · rw [show r.out.force = List.ofFn r.sol.force from rfl, show r.out.vFsCp = List.ofFn r.sol.vFsCp from rfl,
      out2, out3, mul_smul, ← hsp, hsol]
    rfl
  · rw [show r.out.lift = List.ofFn r.sol.lift from rfl, out3, mul_smul, ← hsp, hsol]
    rfl
  · rw [show r.out.drag = List.ofFn r.sol.drag from rfl, show r.out.vIndCp = List.ofFn r.sol.vIndCp from rfl,
      out2, out3, mul_smul, ← hsp, hsol]
    rfl

end PySailing.Props
