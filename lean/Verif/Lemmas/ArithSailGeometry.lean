import Verif.Lemmas.ArithSailTwist

/-!
# Limits of rounded sails (C132): `SailGeometry`
-/

namespace PySailing

open Spec Filter Topology

variable {T : Type} {l : Filter T}

namespace Spec.RefinedSail

variable {growth : ℕ → ℝ} {A : T → SailArith} {u : T → ℝ}

theorem almostEq (R : RefinedSail l growth A u) {x y : T → ℝ} {x0 : ℝ} (hx : Tendsto x l (𝓝 x0)) (hy : Tendsto y l (𝓝 x0)) :
    ∀ᶠ t in l, (A t).almostEq (x t) (y t) := by
  have h1 := (R.base.sub hy hx).abs
  rw [sub_self, abs_zero] at h1
  exact h1.eventually_lt (R.base.mul (R.base.lit 1.5) (R.base.lit 1e-7)) (by norm_num)

theorem luffOk (R : RefinedSail l growth A u) {f : T → ℕ → ℕ → V3} {f0 : ℕ → ℕ → V3} {ns : ℕ}
    (hf : ∀ r, r ≤ ns → Conv l (fun t => f t r 0) (f0 r 0)) (hax : AxisOk (f0 0 0) (f0 ns 0))
    (hline : ∀ r, r ≤ ns → ∃ x : ℝ, f0 r 0 = f0 0 0 + x • (f0 ns 0 - f0 0 0)) {tw : T → ℕ → ℝ} {tw0 : ℕ → ℝ}
    (htw : ∀ r, r ≤ ns → Tendsto (fun t => tw t r) l (𝓝 (tw0 r))) : ∀ᶠ t in l, (A t).LuffOk (f t) ns (tw t) := by
  have h1 := hf 0 (Nat.zero_le _)
  have h2 := hf ns le_rfl
  have hv0 : Real.sqrt ((f0 ns 0 - f0 0 0).y ^ 2 + (f0 ns 0 - f0 0 0).z ^ 2) ≠ 0 := by
    rw [Real.sqrt_ne_zero (by positivity)]; exact hax.sq
  have hst : ∀ᶠ t in l, ∀ r : Fin (ns + 1),
      (A t).PointEq ((A t).rotateAboutLineCore (f t 0 0) (f t ns 0) ((A t).deg2rad (tw t r)) (f t r 0)) (f t r 0) :=
    eventually_all.2 fun r => by
      have hr : r.val ≤ ns := Nat.lt_succ_iff.1 r.isLt
      have h3 := hf r hr
      have h4 := R.rotateAboutLineCore h1 h2 h3 hax (R.full.deg2rad (htw r hr))
      obtain ⟨x, hx⟩ := hline r hr
      have e : rotateAboutLine (f0 0 0) (f0 ns 0) (PySailing.deg2rad (tw0 r)) (f0 r 0) = f0 r 0 := by
        conv_lhs => rw [hx]
        rw [rotateAboutLine_on_line hax.ne, ← hx]
      rw [e] at h4
      filter_upwards [R.almostEq h4.x h3.x, R.almostEq h4.y h3.y, R.almostEq h4.z h3.z] with t t1 t2 t3
      exact ⟨t1, t2, t3⟩
  filter_upwards [(R.axisV h1 h2 hax).eventually_ne hv0, (R.base.norm (R.base.vsub h2 h1)).eventually_ne (V3.norm_pos hax.ne).ne',
    hst] with t t1 t2 t3
  exact ⟨t1, t2, fun r hr => t3 ⟨r, by omega⟩⟩

end Spec.RefinedSail

/-- Trailing edge flags of one side of a sail. -/
def sideTe (nc ns : ℕ) : List Bool :=
  (List.range nc).flatMap fun i => (List.range ns).map fun _ => if i + 1 = nc then true else false

/-- Leading edge flags of one side of a sail. -/
def sideLe (nc ns : ℕ) : List Bool :=
  (List.range nc).flatMap fun i => (List.range ns).map fun _ => if i + 1 = nc then false else if i = 0 then true else false

/-- What is used of a sail geometry by the solver. -/
structure GeomOf (nc ns : ℕ) (P Q : ℕ → ℕ → V3) (g : SailGeom) : Prop where
  gns : g.ns = ns
  gnc : g.nc = nc
  above : g.panelsAbove = panelGrid nc ns P
  under : g.panelsUnder = panelGrid nc ns Q
  te : g.te = sideTe nc ns
  le : g.le = sideLe nc ns

theorem getD_mem {xs : List ℝ} {r : ℕ} (h : r < xs.length) : xs.getD r 0 ∈ xs := by
  rw [List.getD_eq_getElem?_getD, List.getElem?_eq_getElem h]
  exact List.getElem_mem h

theorem Csys.heeling_upright {c : Csys} (h : Real.sin (deg2rad c.heelDeg) = 0) (p : V3) :
    c.heeling.mulVec p = c.reverseHeeling.mulVec p := by
  rw [Csys.reverseHeeling_mulVec, Csys.heeling_mulVec, h]
  simp

namespace Spec.RefinedSail

variable {growth : ℕ → ℝ} {A : T → SailArith} {u : T → ℝ}

/-- Rounded geometries of converging sails tend to the exact geometry. -/
theorem sailGeometry (R : RefinedSail l growth A u) {s : T → SailInput} {s0 : SailInput} {θ0 : ℕ → ℝ} (S : TendsSail l A s s0)
    (ok : SailOk s0 θ0) : ∃ P Q : T → ℕ → ℕ → V3,
      (∀ᶠ t in l, ∃ g, (A t).sailGeometry (s t) = .ok g ∧ GeomOf s0.nc s0.ns (P t) (Q t) g) ∧
      ∀ r k, r ≤ s0.ns → k ≤ s0.nc → Conv l (fun t => P t r k) (s0.aboveTwisted θ0 r k) ∧
        Conv l (fun t => Q t r k) (s0.underTwisted θ0 r k) := by
  have hdlen := ok.valid.distance_len
  have hclen := ok.camber_len
  have hchlen := ok.valid.chords_len
  have hdist : ∀ r, r ≤ s0.ns → 0 < s0.distance.getD r 0 ∧ s0.distance.getD r 0 < 1 := fun r hr => by
    refine ⟨ok.pos r hr, ?_⟩
    have hlt : r < s0.distance.length := by omega
    have := (ok.valid.distance_range (s0.distance.getD r 0) (by
      rw [List.getD_eq_getElem?_getD, List.getElem?_eq_getElem hlt, Option.getD_some]
      exact take_mem (by omega) hlt)).2
    linarith
  -- the settings of the side under the water
  have hchR : ∀ r, r ≤ s0.ns → Tendsto (fun t => (s t).chords.reverse.getD r 0) l (𝓝 (s0.chords.reverse.getD r 0)) := fun r hr => by
    rw [reverse_getD hchlen hr]
    refine (S.chords _).congr' (S.chords_len.mono fun t ht => ?_)
    beta_reduce
    rw [reverse_getD (ht.trans hchlen) hr]
  have hcaR : ∀ r, r ≤ s0.ns → Tendsto (fun t => (s t).camber.reverse.getD r 0) l (𝓝 (s0.camber.reverse.getD r 0)) := fun r hr => by
    rw [reverse_getD hclen hr]
    refine (S.camber _).congr' (S.camber_len.mono fun t ht => ?_)
    beta_reduce
    rw [reverse_getD (ht.trans hclen) hr]
  -- rows can be calculated
  have hrng : ∀ᶠ t in l, ∀ r, r ≤ s0.ns → 0 ≤ (s t).camber.getD r 0 ∧ (s t).camber.getD r 0 ≤ (A t).lit 0.3 := by
    filter_upwards [S.range, S.camber_len] with t t1 t2 r hr
    exact t1.1 _ (getD_mem (by rw [t2]; omega))
  have hrngd : ∀ᶠ t in l, ∀ r, r ≤ s0.ns → (s t).distance.getD r 0 ≤ (A t).lit 0.9 := by
    filter_upwards [S.range, S.distance_len] with t t1 t2 r hr
    exact t1.2 _ (getD_mem (by rw [t2]; omega))
  have row1 : ∀ᶠ t in l, ∀ r : Fin (s0.ns + 1), (A t).RowOk s0.nc ((s t).camber.getD r 0) ((s t).distance.getD r 0) :=
    eventually_all.2 fun r => by
      have hr : r.val ≤ s0.ns := Nat.lt_succ_iff.1 r.isLt
      exact R.rowOk ok.nc_pos (S.distance r) (hdist r hr).1 (hdist r hr).2 (hrng.mono fun t ht => ht r hr)
        (hrngd.mono fun t ht => ht r hr)
  have row2 : ∀ᶠ t in l, ∀ r : Fin (s0.ns + 1), (A t).RowOk s0.nc ((s t).camber.reverse.getD r 0) ((s t).distance.getD r 0) :=
    eventually_all.2 fun r => by
      have hr : r.val ≤ s0.ns := Nat.lt_succ_iff.1 r.isLt
      refine R.rowOk ok.nc_pos (S.distance r) (hdist r hr).1 (hdist r hr).2 ?_ (hrngd.mono fun t ht => ht r hr)
      filter_upwards [hrng, S.camber_len] with t t1 t2
      rw [reverse_getD (t2.trans hclen) hr]
      exact t1 _ (Nat.sub_le _ _)
  -- points before the twist
  obtain ⟨M, hM, m1, m2, m3⟩ := R.csysMatrices S.heel S.leeway
  let f : T → ℕ → ℕ → V3 := fun t r k => (A t).rotatePointWithMirror (M t)
    ((A t).sailPt (s t).tack (s t).head s0.nc s0.ns (s t).chords (s t).distance (s t).camber r k)
  let f' : T → ℕ → ℕ → V3 := fun t r k => (A t).rotatePointWithMirror (M t)
    ((A t).sailPt (flipZ (s t).head) (flipZ (s t).tack) s0.nc s0.ns (s t).chords.reverse (s t).distance (s t).camber.reverse r k)
  have hf : ∀ r k, r ≤ s0.ns → k ≤ s0.nc → Conv l (fun t => f t r k) (s0.abovePt r k) := fun r k hr hk => by
    refine R.rotatePointWithMirror m1 m2 m3 (R.sailPt S.tack S.head ok.nc_pos ok.ns_pos hr (S.chords r) (S.distance r) (S.camber r)
      (hdist r hr).1 (hdist r hr).2 hk) ?_
    rcases ok.z_pos hr with h | h
    · exact Or.inl h.ne'
    · exact Or.inr (Csys.heeling_upright h _)
  have hf' : ∀ r k, r ≤ s0.ns → k ≤ s0.nc → Conv l (fun t => f' t r k) (s0.underPt r k) := fun r k hr hk => by
    refine R.rotatePointWithMirror m1 m2 m3 (R.sailPt (mirror_conv S.head) (mirror_conv S.tack) ok.nc_pos ok.ns_pos hr (hchR r hr)
      (S.distance r) (hcaR r hr) (hdist r hr).1 (hdist r hr).2 hk) ?_
    rcases ok.foot with h | h
    · left
      have := lerp_z_pos ok.head_z h (frac_mem hr).1 (frac_mem hr).2
      have e : (lerp (mirror s0.head) (mirror s0.tack) ((r : ℝ) / s0.ns)).z = -(lerp s0.head s0.tack ((r : ℝ) / s0.ns)).z := by
        simp [lerp, mirror]; ring
      show (lerp (mirror s0.head) (mirror s0.tack) ((r : ℝ) / s0.ns)).z ≠ 0
      rw [e]
      exact (neg_lt_zero.2 this).ne
    · exact Or.inr (Csys.heeling_upright h _)
  have hmesh : ∀ᶠ t in l, ∃ m m' : NdMesh,
      (A t).makeAirfoilMesh (s t).tack (s t).head (s t).nc (s t).ns (s t).chords (s t).distance (s t).camber = .ok m ∧
      (A t).makeAirfoilMesh (flipZ (s t).head) (flipZ (s t).tack) (s t).nc (s t).ns (s t).chords.reverse (s t).distance
        (s t).camber.reverse = .ok m' ∧ m.n0 = (s t).ns + 1 ∧ m.n1 = (s t).nc + 1 ∧ m'.n0 = (s t).ns + 1 ∧ m'.n1 = (s t).nc + 1 ∧
      ((List.range ((s t).ns + 1)).flatMap fun i => (List.range ((s t).nc + 1)).map fun j =>
        (A t).rotatePointWithMirror (M t) (m.at' i j)) =
        ((List.range ((s t).ns + 1)).flatMap fun i => (List.range ((s t).nc + 1)).map fun j => f t i j) ∧
      ((List.range ((s t).ns + 1)).flatMap fun i => (List.range ((s t).nc + 1)).map fun j =>
        (A t).rotatePointWithMirror (M t) (m'.at' i j)) =
        ((List.range ((s t).ns + 1)).flatMap fun i => (List.range ((s t).nc + 1)).map fun j => f' t i j) := by
    filter_upwards [row1, row2, S.chords_len, S.distance_len, S.camber_len, S.nc, S.ns] with t t1 t2 x1 x2 x3 x4 x5
    obtain ⟨m, a1, a2, a3, a4⟩ := (A t).makeAirfoilMesh_eq (nc := s0.nc) (ns := s0.ns) ok.nc_pos (s t).tack (s t).head
      (chords := (s t).chords) (distance := (s t).distance) (camber := (s t).camber) (by rw [x1, hchlen])
      (by rw [x2]; exact hdlen) (by rw [x3]; omega) (fun r hr => t1 ⟨r, by omega⟩)
    obtain ⟨m', b1, b2, b3, b4⟩ := (A t).makeAirfoilMesh_eq (nc := s0.nc) (ns := s0.ns) ok.nc_pos (flipZ (s t).head) (flipZ (s t).tack)
      (chords := (s t).chords.reverse) (distance := (s t).distance) (camber := (s t).camber.reverse)
      (by rw [List.length_reverse, x1, hchlen]) (by rw [x2]; exact hdlen)
      (by rw [List.length_reverse, x3]; omega) (fun r hr => t2 ⟨r, by omega⟩)
    rw [x4, x5]
    refine ⟨m, m', a1, b1, a2, a3, b2, b3, grid_congr fun i j hi hj => ?_, grid_congr fun i j hi hj => ?_⟩
    · rw [a4 i j (by omega) (by omega)]
    · rw [b4 i j (by omega) (by omega)]
  -- the result, given that of the twist
  have fin : ∀ P Q : T → ℕ → ℕ → V3, (∀ᶠ t in l, (A t).twistBlock (s t) ((s t).ns + 1) ((s t).nc + 1)
      ((List.range ((s t).ns + 1)).flatMap fun i => (List.range ((s t).nc + 1)).map fun j => f t i j)
      ((List.range ((s t).ns + 1)).flatMap fun i => (List.range ((s t).nc + 1)).map fun j => f' t i j) =
      .ok ((List.range ((s t).ns + 1)).flatMap fun i => (List.range ((s t).nc + 1)).map fun j => P t i j,
        (List.range ((s t).ns + 1)).flatMap fun i => (List.range ((s t).nc + 1)).map fun j => Q t i j)) →
      ∀ᶠ t in l, ∃ g, (A t).sailGeometry (s t) = .ok g ∧ GeomOf s0.nc s0.ns (P t) (Q t) g := by
    intro P Q h
    filter_upwards [hM, hmesh, h, S.nc, S.ns] with t t1 t2 t3 x4 x5
    obtain ⟨m, m', c1, c2, c3, c4, c5, c6, c7, c8⟩ := t2
    rw [← c7, ← c8] at t3
    obtain ⟨g, g1, g2, g3, g4, g5, g6, g7⟩ := (A t).sailGeometry_of t1 c1 c2 c3 c4 c5 c6 t3
    rw [x4, x5] at *
    exact ⟨g, g1, g2, g3, g4, g5, g6, g7⟩
  rcases ok.twist with ⟨tw0, mode, w1, w2, w3, w4, w5⟩ | ⟨w1, w2⟩
  · rcases S.twist with ⟨x, -⟩ | ⟨tw0', tw, x1, x2, x3⟩
    · rw [w1] at x; cases x
    rw [w1] at x1
    obtain rfl : tw0 = tw0' := Option.some.inj x1
    have hθ : ∀ r, r ≤ s0.ns → tw0.getD r 0 = θ0 r := fun r hr => by rw [List.getD_eq_getElem?_getD, w5 r hr]; rfl
    have l1 := R.luffOk (f := f) (f0 := s0.abovePt) (ns := s0.ns) (fun r hr => hf r 0 hr (Nat.zero_le _)) ok.above_axis
      (fun r hr => ⟨_, ok.above_line hr⟩) (tw := fun t r => (tw t).getD r 0) (fun r _ => (x2 r))
    have l2 := R.luffOk (f := f') (f0 := s0.underPt) (ns := s0.ns) (fun r hr => hf' r 0 hr (Nat.zero_le _)) ok.under_axis
      (fun r hr => ⟨_, ok.under_line hr⟩) (tw := fun t r => (tw t).getD (s0.ns - r) 0) (fun r _ => (x2 (s0.ns - r)))
    refine ⟨fun t => (A t).twistedPt (f t) s0.ns fun r => (tw t).getD r 0,
      fun t => (A t).twistedPt (f' t) s0.ns fun r => (tw t).getD (s0.ns - r) 0, fin _ _ ?_, fun r k hr hk => ⟨?_, ?_⟩⟩
    · filter_upwards [l1, l2, x3, S.mode, S.ns] with t t1 t2 y1 y2 y3
      have := (A t).twistBlock_given (s := s t) (nc := (s t).nc) y1.1 (y2.trans w2)
        (by rw [y1.2, w3, y3]) w4 (f := f t) (g := f' t) (by rw [y3]; exact t1) (by rw [y3]; exact t2)
      rw [this, y3]
    · have := R.rotateAboutLineCore (hf 0 0 (Nat.zero_le _) (Nat.zero_le _)) (hf s0.ns 0 le_rfl (Nat.zero_le _)) (hf r k hr hk)
        ok.above_axis (R.full.deg2rad (x2 r))
      rw [hθ r hr] at this
      exact this
    · have := R.rotateAboutLineCore (hf' 0 0 (Nat.zero_le _) (Nat.zero_le _)) (hf' s0.ns 0 le_rfl (Nat.zero_le _)) (hf' r k hr hk)
        ok.under_axis (R.full.deg2rad (x2 (s0.ns - r)))
      rw [hθ _ (Nat.sub_le _ _)] at this
      exact this
  · refine ⟨f, f', fin _ _ ?_, fun r k hr hk => ⟨?_, ?_⟩⟩
    · rcases w1 with w1 | w1
      · rcases S.twist with ⟨-, x⟩ | ⟨tw0', tw, x1, -⟩
        · exact x.mono fun t ht => (A t).twistBlock_none (Or.inl ht) _ _ _ _
        · rw [w1] at x1; cases x1
      · exact S.mode.mono fun t ht => (A t).twistBlock_none (Or.inr (ht.trans w1)) _ _ _ _
    · have e : s0.aboveTwisted θ0 r k = s0.abovePt r k := by
        unfold SailInput.aboveTwisted
        rw [w2]
        simp only [PySailing.deg2rad, zero_mul, rotateAboutLine_zero]
      rw [e]
      exact hf r k hr hk
    · have e : s0.underTwisted θ0 r k = s0.underPt r k := by
        unfold SailInput.underTwisted
        rw [w2]
        simp only [PySailing.deg2rad, zero_mul, rotateAboutLine_zero]
      rw [e]
      exact hf' r k hr hk

end Spec.RefinedSail

end PySailing
