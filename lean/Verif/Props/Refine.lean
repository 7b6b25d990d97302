import Verif.Props.Main

/-!
# C96: a finer mesh contains the coarser one
-/

namespace PySailing.Props

open PySailing PySailing.Spec

/-- The configuration with `a` times as many chordwise and `b` times as many spanwise panels. -/
def finer (a b : ℕ) (c : Config) : Config :=
  { c with solver := { c.solver with nc := a * c.solver.nc, ns := b * c.solver.ns } }

theorem finer_wellFormed {c : Config} (h : WellFormed c) {a b : ℕ} (ha : 1 ≤ a) (hb : 1 ≤ b) :
    WellFormed (finer a b c) where
  mode := h.mode
  ns_pos := Nat.mul_pos hb h.ns_pos
  nc_pos := Nat.mul_pos ha h.nc_pos
  heel := h.heel
  sails := h.sails
  base := h.base
  main_twist := h.main_twist
  jib_twist := h.jib_twist
  jib := h.jib
  main := h.main
  wind := h.wind

/-- The polygon through points with increasing abscissae has one value at each place. -/
theorem polygonValue_unique {m : ℕ} {xs ys : ℕ → ℝ} {x v w : ℝ} (hv : PolygonValue m xs ys x v)
    (hw : PolygonValue m xs ys x w) : v = w := by
  rcases polygon_cases hv with h | h | ⟨i, hi, h1, h2, -⟩
  · rw [hv.left h.1, hw.left h.1]
  · rw [hv.right h.1, hw.right h.1]
  · rw [hv.between i hi h1 h2, hw.between i hi h1 h2]

/-- So has the curve of either interpolation type. -/
theorem curveValue_unique {kind : String} {n : ℕ} {xs ys : ℕ → ℝ} {x v w : ℝ}
    (hk : kind = "linear" ∨ (kind = "spline" ∧ 4 ≤ n)) (hx : ∀ i, i + 1 < n → xs i < xs (i + 1))
    (hv : CurveValue kind (n - 1) xs ys x v) (hw : CurveValue kind (n - 1) xs ys x w) : v = w := by
  rcases hv with ⟨k1, hv⟩ | ⟨k1, S, hS, rfl⟩ <;> rcases hw with ⟨k2, hw⟩ | ⟨k2, T, hT, rfl⟩
  · exact polygonValue_unique hv hw
  · exact absurd (k1.symm.trans k2) (by simp)
  · exact absurd (k2.symm.trans k1) (by simp)
  · rcases hk with hk | ⟨-, hk⟩
    · exact absurd (hk.symm.trans k1) (by simp)
    · rw [IsSpline.unique (by omega) (fun i hi => hx i (by omega)) hS hT]

theorem finer_fraction {b ns : ℕ} (hb : 1 ≤ b) (r : ℕ) : (((b * r : ℕ) : ℝ)) / ((b * ns : ℕ) : ℝ) = (r : ℝ) / ns := by
  have : (b : ℝ) ≠ 0 := by exact_mod_cast (by omega : b ≠ 0)
  push_cast
  exact mul_div_mul_left _ _ this

/-- Points of the sail that belong to both meshes agree. -/
theorem designed_finer {kind : String} {conf : SailConf} {gi ch tw ca di : List ℝ} (hg : GoodSail kind conf gi ch tw ca di)
    {ns nc a b : ℕ} (ha : 1 ≤ a) (hb : 1 ≤ b) {csys csys' : Csys} {tack head : V3} {s s' : SailInput × (ℕ → ℝ)}
    (hs : DesignedSail kind ns nc csys gi ch tw ca di tack head s)
    (hs' : DesignedSail kind (b * ns) (a * nc) csys' gi ch tw ca di tack head s') (heel leeway : ℝ) {r k : ℕ}
    (hr : r ≤ ns) : afloatPoint heel leeway s' (b * r) (a * k) = afloatPoint heel leeway s r k := by
  have hbr : b * r ≤ b * ns := Nat.mul_le_mul_left b hr
  have key : ∀ {data v v' : List ℝ}, Sampled kind ns gi data v → Sampled kind (b * ns) gi data v' →
      v'.getD (b * r) 0 = v.getD r 0 := fun h h' => by
    have h2 := h'.2 _ hbr
    rw [finer_fraction hb] at h2
    exact curveValue_unique hg.kind_ok hg.increasing h2 (h.2 r hr)
  have ht : s'.2 (b * r) = s.2 r := by
    have h2 := hs'.twist _ hbr
    rw [finer_fraction hb] at h2
    exact curveValue_unique hg.kind_ok hg.increasing h2 (hs.twist r hr)
  simp only [afloatPoint, sailPoint, hs.ns_eq, hs.nc_eq, hs.tack_eq, hs.head_eq, hs'.ns_eq, hs'.nc_eq, hs'.tack_eq,
    hs'.head_eq, key hs.chords hs'.chords, key hs.camber hs'.camber, key hs.distance hs'.distance, ht,
    finer_fraction hb, finer_fraction ha]

theorem designedJib_finer {c : Config} {a b : ℕ} (ha : 1 ≤ a) (hb : 1 ≤ b) {csys : Csys} {s s' : SailInput × (ℕ → ℝ)}
    (hs : DesignedJib c.solver c.rig csys (jibData c) s)
    (hs' : DesignedJib (finer a b c).solver (finer a b c).rig csys (jibData (finer a b c)) s') (heel leeway : ℝ) {r k : ℕ}
    (hr : r ≤ c.solver.ns) : afloatPoint heel leeway s' (b * r) (a * k) = afloatPoint heel leeway s r k := by
  obtain ⟨l, ba, hi, gi, ch, tw, ca, di, h1, h2, h3, hg, hd⟩ := hs
  obtain ⟨l', ba', hi', gi', ch', tw', ca', di', h1', h2', h3', hg', hd'⟩ := hs'
  cases h1.symm.trans h1'
  cases h2.symm.trans h2'
  cases h3.symm.trans h3'
  cases hg.girths_eq.symm.trans hg'.girths_eq
  cases hg.chords_eq.symm.trans hg'.chords_eq
  cases hg.twist_eq.symm.trans hg'.twist_eq
  cases hg.camber_eq.symm.trans hg'.camber_eq
  cases hg.distance_eq.symm.trans hg'.distance_eq
  exact designed_finer hg ha hb hd hd' heel leeway hr

theorem designedMain_finer {c : Config} {a b : ℕ} (ha : 1 ≤ a) (hb : 1 ≤ b) {csys : Csys} {s s' : SailInput × (ℕ → ℝ)}
    (hs : DesignedMain c.solver c.rig csys (mainData c) s)
    (hs' : DesignedMain (finer a b c).solver (finer a b c).rig csys (mainData (finer a b c)) s') (heel leeway : ℝ) {r k : ℕ}
    (hr : r ≤ c.solver.ns) : afloatPoint heel leeway s' (b * r) (a * k) = afloatPoint heel leeway s r k := by
  obtain ⟨l, gi, ch, tw, ca, di, h1, hg, hd⟩ := hs
  obtain ⟨l', gi', ch', tw', ca', di', h1', hg', hd'⟩ := hs'
  cases h1.symm.trans h1'
  cases hg.girths_eq.symm.trans hg'.girths_eq
  cases hg.chords_eq.symm.trans hg'.chords_eq
  cases hg.twist_eq.symm.trans hg'.twist_eq
  cases hg.camber_eq.symm.trans hg'.camber_eq
  cases hg.distance_eq.symm.trans hg'.distance_eq
  exact designed_finer hg ha hb hd hd' heel leeway hr

/-- Panel `(i, j)` of sail `s` of the coarse mesh is divided into `a` by `b` panels of the fine mesh: it has
its trailing and leading corners in common with the outermost four of them. -/
def Divided (a b nc ns : ℕ) (coarse fine : List Panel) (s i j : ℕ) : Prop :=
  ∃ q q1 q2 q3 q4, coarse[panelNo nc ns s i j]? = some q ∧
    fine[panelNo (a * nc) (b * ns) s (a * i + (a - 1)) (b * j)]? = some q1 ∧ q1.p1 = q.p1 ∧
    fine[panelNo (a * nc) (b * ns) s (a * i) (b * j)]? = some q2 ∧ q2.p2 = q.p2 ∧
    fine[panelNo (a * nc) (b * ns) s (a * i) (b * j + (b - 1))]? = some q3 ∧ q3.p3 = q.p3 ∧
    fine[panelNo (a * nc) (b * ns) s (a * i + (a - 1)) (b * j + (b - 1))]? = some q4 ∧ q4.p4 = q.p4

theorem divided_of {c : Config} {a b : ℕ} (ha : 1 ≤ a) (hb : 1 ≤ b) {p p' : List Panel} {n : ℕ}
    {s s' : SailInput × (ℕ → ℝ)} (hp : SpannedBy c p n s) (hp' : SpannedBy (finer a b c) p' n s')
    (h : ∀ r k, r ≤ c.solver.ns → afloatPoint c.heelDeg c.leewayDeg s' (b * r) (a * k) =
      afloatPoint c.heelDeg c.leewayDeg s r k) {i j : ℕ} (hi : i < c.solver.nc) (hj : j < c.solver.ns) :
    Divided a b c.solver.nc c.solver.ns p p' n i j := by
  have hi1 : a * (i + 1) ≤ a * c.solver.nc := Nat.mul_le_mul_left a hi
  have hj1 : b * (j + 1) ≤ b * c.solver.ns := Nat.mul_le_mul_left b hj
  rw [Nat.mul_add, Nat.mul_one] at hi1 hj1
  have hp'' : ∀ i' j', i' < a * c.solver.nc → j' < b * c.solver.ns →
      p'[panelNo (a * c.solver.nc) (b * c.solver.ns) n i' j']? =
        some (panelOf (afloatPoint c.heelDeg c.leewayDeg s') i' j') := hp'
  have e1 : a * i + (a - 1) + 1 = a * (i + 1) := by rw [Nat.mul_add]; omega
  have e2 : b * j + (b - 1) + 1 = b * (j + 1) := by rw [Nat.mul_add]; omega
  refine ⟨_, _, _, _, _, hp i j hi hj, hp'' _ _ (by omega) (by omega), ?_, hp'' _ _ (by omega) (by omega), ?_,
    hp'' _ _ (by omega) (by omega), ?_, hp'' _ _ (by omega) (by omega), ?_⟩ <;> simp only [panelOf, e1, e2]
  · exact h _ _ hj.le
  · exact h _ _ hj.le
  · exact h _ _ hj
  · exact h _ _ hj

/-- **C96.** Multiplying the numbers of panels along chord and span by `a` and `b` divides every panel of the sails
into `a` by `b` panels: the corners of the coarse mesh are corners of the fine mesh, for either interpolation
type, and sails, coordinate system and wind are otherwise the same. -/
theorem C96_refine (c : Config) (h : WellFormed c) (a b : ℕ) (ha : 1 ≤ a) (hb : 1 ≤ b) :
    ∃ csys wind set hull set' hull', prepareGeometry fitpackSpline c = .ok (csys, wind, set, hull) ∧
      prepareGeometry fitpackSpline (finer a b c) = .ok (csys, wind, set', hull') ∧
      set'.panels.length = a * b * set.panels.length ∧
      ∀ s i j, (s = 0 ∨ s = 1 ∧ c.rig.sailsDef = "jib_and_main") → i < c.solver.nc → j < c.solver.ns →
        Divided a b c.solver.nc c.solver.ns set.panels set'.panels s i j := by
  obtain ⟨hull, set, hset, d1, d2, d3⟩ := C77_geometry c h
  obtain ⟨hull', set', hset', d1', d2', d3'⟩ := C77_geometry (finer a b c) (finer_wellFormed h ha hb)
  refine ⟨_, _, set, hull, set', hull', hset, hset', ?_⟩
  have hm := h.sails
  simp only [List.mem_cons, List.not_mem_nil, or_false] at hm
  rcases hm with hm | hm | hm
  · obtain ⟨l, sj, hj, hp⟩ := d1 hm
    obtain ⟨l', sj', hj', hp'⟩ := d1' hm
    refine ⟨by rw [l, l']; simp only [finer]; ring, ?_⟩
    rintro s i j (rfl | ⟨-, h'⟩) hi hjj
    · exact divided_of ha hb hp hp' (fun r k hr => designedJib_finer ha hb hj hj' _ _ hr) hi hjj
    · exact absurd (hm.symm.trans h') (by simp)
  · obtain ⟨l, sj, hj, hp⟩ := d2 hm
    obtain ⟨l', sj', hj', hp'⟩ := d2' hm
    refine ⟨by rw [l, l']; simp only [finer]; ring, ?_⟩
    rintro s i j (rfl | ⟨-, h'⟩) hi hjj
    · exact divided_of ha hb hp hp' (fun r k hr => designedMain_finer ha hb hj hj' _ _ hr) hi hjj
    · exact absurd (hm.symm.trans h') (by simp)
  · obtain ⟨l, sj, sm, hj, hmn, hp, hq⟩ := d3 hm
    obtain ⟨l', sj', sm', hj', hmn', hp', hq'⟩ := d3' hm
    refine ⟨by rw [l, l']; simp only [finer]; ring, ?_⟩
    rintro s i j (rfl | ⟨rfl, -⟩) hi hjj
    · exact divided_of ha hb hp hp' (fun r k hr => designedJib_finer ha hb hj hj' _ _ hr) hi hjj
    · exact divided_of ha hb hq hq' (fun r k hr => designedMain_finer ha hb hmn hmn' _ _ hr) hi hjj

/-- Non-vacuity: jib and main sail, 3 by 4 panels each, refined to 6 by 12. -/
example : ∃ csys wind set hull, prepareGeometry fitpackSpline (finer 2 3 wellFormedConfig) = .ok (csys, wind, set, hull) ∧
    set.panels.length = 288 := by
  obtain ⟨_, _, set, _, set', hull', -, h2, -⟩ := C96_refine _ wellFormed_demo 2 3 (by norm_num) (by norm_num)
  refine ⟨_, _, _, _, h2, ?_⟩
  obtain ⟨_, _, h3, -, -, d⟩ := C77_geometry _ (finer_wellFormed wellFormed_demo (a := 2) (b := 3) (by norm_num) (by norm_num))
  rw [h3] at h2
  cases h2
  exact (d rfl).1

end PySailing.Props
