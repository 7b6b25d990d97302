import Verif.Lemmas.Airfoil

/-!
# C09 - C15: segments, camber lines, meshes, panels, areas
-/

namespace PySailing.Props

open PySailing PySailing.Spec

/-! ## C09 -/

/-- **C09.** For `n ≥ 1`: `n + 1` points, point `i` at fraction `i/n` of the segment; in
particular the first is `p1` and the last is exactly `p2`. -/
theorem C09_discrete_segment (p1 p2 : V3) (n : ℕ) (hn : 1 ≤ n) :
    (discreteSegment p1 p2 n).length = n + 1 ∧
    (∀ i, i ≤ n → (discreteSegment p1 p2 n)[i]? = some (lerp p1 p2 ((i : ℝ) / n))) ∧
    (discreteSegment p1 p2 n).head? = some p1 ∧
    (discreteSegment p1 p2 n).getLast? = some p2 := by
  refine ⟨discreteSegment_length p1 p2 n, fun i hi => discreteSegment_getElem? p1 p2 hn hi, ?_, ?_⟩
  · rw [List.head?_eq_getElem?, discreteSegment_getElem? p1 p2 hn (by omega)]
    simp
  · simp [discreteSegment]

example : (1 : ℕ) ≤ 10 := by norm_num

/-! ## C10 -/

/-- **C10.** For accepted parameters and any number `N + 1` of points, the camber ordinates are
those of the two-parabola curve with vertex `(p, m)`; hence they lie in `[0, m]`, reach `m` at
`x = p`, vanish at the trailing edge, and at the leading edge when `p > 0`. -/
theorem C10_camber_line (m p t : ℝ) (N : ℕ)
    (hm : 0 ≤ m ∧ m ≤ 0.3) (hp : 0 ≤ p ∧ p ≤ 0.9) (ht : 0 ≤ t ∧ t ≤ 0.4) :
    ∃ foil, vlmAirfoil m p t (N + 1) = .ok foil ∧
      foil.xc.length = N + 1 ∧ foil.yc.length = N + 1 ∧
      ∀ k, k ≤ N → ∃ x y, foil.xc[k]? = some x ∧ foil.yc[k]? = some y ∧
        x = (k : ℝ) / N ∧
        (x < p → y = m * (1 - ((x - p) / p) ^ 2)) ∧
        (p ≤ x → y = m * (1 - ((x - p) / (1 - p)) ^ 2)) ∧
        0 ≤ y ∧ y ≤ m ∧ (x = p → y = m) ∧ (x = 1 → y = 0) ∧ (x = 0 → 0 < p → y = 0) := by
  refine ⟨_, vlmAirfoil_ok hm.1 hm.2 hp.1 hp.2 ht.1 ht.2 (N + 1), linspace01_length _, ?_, ?_⟩
  · simp [linspace01_length]
  · intro k hk
    have hx : (linspace01 (N + 1))[k]? = some ((k : ℝ) / N) :=
      linspace01_getElem? (Nat.lt_succ_of_le hk)
    have hmem := linspace01_mem (List.mem_of_getElem? hx)
    refine ⟨_, camberCurve m p ((k : ℝ) / N), hx, by simp [hx], rfl, ?_, ?_, ?_, ?_, ?_, ?_, ?_⟩
    · intro h; unfold camberCurve; rw [if_pos h]
    · intro h; unfold camberCurve; rw [if_neg (not_lt.2 h)]
    · exact (camberCurve_bounds hm.1 hp.1 hp.2 hmem.1 hmem.2).1
    · exact (camberCurve_bounds hm.1 hp.1 hp.2 hmem.1 hmem.2).2
    · intro h; rw [h, camberCurve_at_p]
    · intro h; rw [h, camberCurve_one hp.2]
    · intro h h'; rw [h, camberCurve_zero h']

/-- **C10**, rejection: any parameter out of range terminates the program with status 1. -/
theorem C10_rejects (m p t : ℝ) (n : ℕ)
    (h : m < 0 ∨ 0.3 < m ∨ p < 0 ∨ 0.9 < p ∨ t < 0 ∨ 0.4 < t) :
    vlmAirfoil m p t n = .error (.sysExit 1) := by
  apply vlmAirfoil_exit
  rintro ⟨h1, h2, h3, h4, h5, h6⟩
  rcases h with h | h | h | h | h | h <;> linarith

/-- A consequence of accepting `p = 0`: the camber line does not start on the chord line, its
leading edge ordinate is `m`. -/
theorem C10_p_zero_leading_edge (m t : ℝ) (N : ℕ)
    (hm : 0 ≤ m ∧ m ≤ 0.3) (ht : 0 ≤ t ∧ t ≤ 0.4) :
    ∃ foil, vlmAirfoil m 0 t (N + 1) = .ok foil ∧ foil.yc[0]? = some m := by
  refine ⟨_, vlmAirfoil_ok hm.1 hm.2 le_rfl (by norm_num) ht.1 ht.2 (N + 1), ?_⟩
  have hx : (linspace01 (N + 1))[0]? = some (((0 : ℕ) : ℝ) / N) := linspace01_getElem? (by omega)
  rw [List.getElem?_map, hx]
  simp [camberCurve]

/-- Non-vacuity: NACA 2412-like parameters. -/
example : (0 ≤ (0.02 : ℝ) ∧ (0.02 : ℝ) ≤ 0.3) ∧ (0 ≤ (0.4 : ℝ) ∧ (0.4 : ℝ) ≤ 0.9) ∧
    (0 ≤ (0.12 : ℝ) ∧ (0.12 : ℝ) ≤ 0.4) := by norm_num

/-! ## C11 -/

/-- **C11.** The angle used for the surfaces is the arctangent of the derivative of the camber
curve; upper and lower points are symmetric about the camber point, `2 yt` apart, along the normal
of the camber line; and at `x = 1` the two surfaces meet. -/
theorem C11_surfaces (m p t : ℝ) (N : ℕ)
    (hm : 0 ≤ m ∧ m ≤ 0.3) (hp : 0 ≤ p ∧ p ≤ 0.9) (ht : 0 ≤ t ∧ t ≤ 0.4) :
    ∃ foil, vlmAirfoil m p t (N + 1) = .ok foil ∧
      ∀ k, k ≤ N → ∃ x y yt θ d xu yu xl yl : ℝ,
        foil.xc[k]? = some x ∧ foil.yc[k]? = some y ∧ foil.yt[k]? = some yt ∧
        foil.theta[k]? = some θ ∧ foil.xu[k]? = some xu ∧ foil.yu[k]? = some yu ∧
        foil.xl[k]? = some xl ∧ foil.yl[k]? = some yl ∧
        y = camberCurve m p x ∧ HasDerivAt (camberCurve m p) d x ∧ θ = Real.arctan d ∧
        (xu + xl) / 2 = x ∧ (yu + yl) / 2 = y ∧
        (xu - xl) ^ 2 + (yu - yl) ^ 2 = (2 * yt) ^ 2 ∧
        (xu - xl) * 1 + (yu - yl) * d = 0 ∧
        (x = 1 → xu = xl ∧ yu = yl) := by
  refine ⟨_, vlmAirfoil_ok hm.1 hm.2 hp.1 hp.2 ht.1 ht.2 (N + 1), ?_⟩
  intro k hk
  have hx : (linspace01 (N + 1))[k]? = some ((k : ℝ) / N) :=
    linspace01_getElem? (Nat.lt_succ_of_le hk)
  have hmem := linspace01_mem (List.mem_of_getElem? hx)
  obtain ⟨x, hxe⟩ : ∃ x, x = (k : ℝ) / N := ⟨_, rfl⟩
  rw [← hxe] at hx hmem
  refine ⟨x, camberCurve m p x, camberThickness t x, Real.arctan (slope m p x), slope m p x,
    _, _, _, _, hx, by simp [hx], by simp [hx], by simp [hx], by simp [hx]; rfl, by simp [hx]; rfl,
    by simp [hx]; rfl, by simp [hx]; rfl, rfl, camberCurve_hasDerivAt hp.1 hp.2 hmem.1, rfl,
    by ring, by ring, ?_, ?_, ?_⟩
  · have := Real.sin_sq_add_cos_sq (Real.arctan (slope m p x))
    linear_combination 4 * camberThickness t x ^ 2 * this
  · have h1 := Real.tan_arctan (slope m p x)
    have hc := Real.cos_arctan_pos (slope m p x)
    rw [Real.tan_eq_sin_div_cos, div_eq_iff hc.ne'] at h1
    linear_combination (-2) * camberThickness t x * h1
  · intro h1
    have h0 : camberThickness t x = 0 := by
      subst h1
      unfold camberThickness
      rw [if_pos (by norm_num)]
      norm_num
    rw [h0]
    constructor <;> ring

/-- The point at `x = 1` exists for every `N ≥ 1`: it is the last one. -/
example (N : ℕ) (h : 1 ≤ N) : (N : ℝ) / N = 1 := by
  have : (N : ℝ) ≠ 0 := by positivity
  exact div_self this

/-! ## C12 -/

/-- **C12.** Mesh of a sail with tack `a`, head `b` in the plane `y = 0`: `ns + 1` rows of `nc + 1`
points; row `r` lies at the constant height of the luff point at fraction `r/ns`, the
k-th point is at fraction `k/nc` of the chord behind it, with offset `chord * camber curve`; so
the row starts on the luff (camber position > 0), ends one chord behind it, and no offset exceeds
`chord * camber`. -/
theorem C12_airfoil_mesh (a b : V3) (nc ns : ℕ) (chords distance camber : List ℝ)
    (hnc : 1 ≤ nc) (hns : 1 ≤ ns) (ha : a.y = 0) (hb : b.y = 0)
    (hv : ValidSail ns chords distance camber) :
    ∃ mesh, makeAirfoilMesh a b nc ns chords distance camber = .ok mesh ∧
      mesh.n0 = ns + 1 ∧ mesh.n1 = nc + 1 ∧
      ∀ r (hr : r ≤ ns), ∃ c m p, chords[r]? = some c ∧ camber[r]? = some m ∧
        distance[r]? = some p ∧
        (∀ k, k ≤ nc → mesh.at' r k = lerp a b ((r : ℝ) / ns)
            + ⟨c * ((k : ℝ) / nc), c * camberCurve m p ((k : ℝ) / nc), 0⟩) ∧
        (0 < p → mesh.at' r 0 = lerp a b ((r : ℝ) / ns)) ∧
        mesh.at' r nc = lerp a b ((r : ℝ) / ns) + ⟨c, 0, 0⟩ ∧
        (∀ k, k ≤ nc → (mesh.at' r k).z = (lerp a b ((r : ℝ) / ns)).z ∧
          |(mesh.at' r k).y| ≤ |c| * m) := by
  obtain ⟨mesh, h1, h2, h3, h4⟩ := makeAirfoilMesh_ok nc a b hv
  refine ⟨mesh, h1, h2, h3, fun r hr => ?_⟩
  have hc : r < chords.length := by have := hv.chords_len; omega
  have hd : r < distance.length := by have := hv.distance_len; omega
  have hm : r < camber.length := by have := hv.camber_len; omega
  have hmr := hv.camber_range _ (take_mem (Nat.lt_succ_of_le hr) hm)
  have hdr := hv.distance_range _ (take_mem (Nat.lt_succ_of_le hr) hd)
  have hncpos : (nc : ℝ) ≠ 0 := by positivity
  have key : ∀ k, k ≤ nc → mesh.at' r k = lerp a b ((r : ℝ) / ns)
            + ⟨chords[r] * ((k : ℝ) / nc), chords[r] * camberCurve camber[r] distance[r] ((k : ℝ) / nc), 0⟩ := by
    intro k hk
    obtain ⟨le, hle, hat⟩ := h4 r k hr hk
    rw [discreteSegment_getElem? a b hns hr] at hle
    have hle' := (Option.some.inj hle).symm
    subst hle'
    rw [hat]
    simp only [List.getD_eq_getElem?_getD, List.getElem?_eq_getElem hc,
      List.getElem?_eq_getElem hd, List.getElem?_eq_getElem hm, Option.getD_some, lerp]
    ext
    · simp; ring
    · simp [ha, hb]
    · simp
  refine ⟨chords[r], camber[r], distance[r], by simp [hc], by simp [hm], by simp [hd], key,
    fun hp => ?_, ?_, fun k hk => ⟨?_, ?_⟩⟩
  · rw [key 0 (by omega)]
    simp only [Nat.cast_zero, zero_div, camberCurve_zero hp]
    ext <;> simp
  · rw [key nc le_rfl, div_self hncpos, camberCurve_one hdr.2]
    ext <;> simp
  · rw [key k hk]; simp
  · rw [key k hk]
    have hk1 : (k : ℝ) / nc ≤ 1 := by
      rw [div_le_one (by positivity)]; exact_mod_cast hk
    have hb' := camberCurve_bounds hmr.1 hdr.1 hdr.2 (by positivity : (0:ℝ) ≤ (k : ℝ) / nc) hk1
    have hy : (lerp a b ((r : ℝ) / ns)).y = 0 := by simp [lerp, ha, hb]
    rw [V3.add_y, hy, zero_add]
    simp only
    rw [abs_mul, abs_of_nonneg hb'.1]
    exact mul_le_mul_of_nonneg_left hb'.2 (abs_nonneg _)

/-- **C12**, bad data: a wrong number of chords (and not exactly one) is a `ValueError`;
otherwise, if all rows before `r` are fine, a missing camber or position for row `r` is an
`IndexError`, and a camber or position out of range in row `r` ends the program with status 1. -/
theorem C12_airfoil_mesh_rejects (a b : V3) (nc ns : ℕ) (chords distance camber : List ℝ) :
    (chords.length ≠ ns + 1 → chords.length ≠ 1 →
      makeAirfoilMesh a b nc ns chords distance camber = .error .valueError) ∧
    (chords.length = ns + 1 → ∀ r, r ≤ ns →
      (∀ i, i < r → ∃ m p, camber[i]? = some m ∧ distance[i]? = some p ∧
        0 ≤ m ∧ m ≤ 0.3 ∧ 0 ≤ p ∧ p ≤ 0.9) →
      (distance.length ≤ r ∨ camber.length ≤ r →
        makeAirfoilMesh a b nc ns chords distance camber = .error .indexError) ∧
      (∀ m p, camber[r]? = some m → distance[r]? = some p →
        (m < 0 ∨ 0.3 < m ∨ p < 0 ∨ 0.9 < p) →
        makeAirfoilMesh a b nc ns chords distance camber = .error (.sysExit 1))) := by
  have hlen := discreteSegment_length a b ns
  have first : ∀ e, chords.length = ns + 1 → ∀ r, r ≤ ns →
      (∀ i, i < r → ∃ m p, camber[i]? = some m ∧ distance[i]? = some p ∧
        0 ≤ m ∧ m ≤ 0.3 ∧ 0 ≤ p ∧ p ≤ 0.9) →
      (∀ p1 p2, airfoilRow (nc + 1) distance camber r p1 p2 = .error e) →
      makeAirfoilMesh a b nc ns chords distance camber = .error e := by
    intro e h r hr hprev he
    have hte := teLine_ok (l := discreteSegment a b ns) (chords := chords) (by rw [hlen, h])
    have hrows : (((discreteSegment a b ns).zip (List.zipWith
        (fun (p : V3) (c : ℝ) => p + ⟨c, 0, 0⟩) (discreteSegment a b ns) chords)).zipIdx).mapM
        (fun q => airfoilRow (nc + 1) distance camber q.2 q.1.1 q.1.2) = .error e := by
      apply mapM_error
      refine ⟨r, by simp [hlen, h]; omega, ?_, fun j hj => ?_⟩
      · simp [he]
      · obtain ⟨m, p, hm, hp, h1, h2, h3, h4⟩ := hprev j hj
        obtain ⟨hcl, rfl⟩ := List.getElem?_eq_some_iff.1 hm
        obtain ⟨hdl, rfl⟩ := List.getElem?_eq_some_iff.1 hp
        simp only [List.getElem_zipIdx, Nat.zero_add]
        exact ⟨_, airfoilRow_ok hdl hcl h1 h2 h3 h4 _ _⟩
    unfold makeAirfoilMesh
    simp only [hte, bind, Except.bind, hrows]
  refine ⟨fun h1 h2 => ?_, fun h1 r hr hprev => ⟨fun h2 => first _ h1 r hr hprev fun p1 p2 => ?_,
    fun m p hm hp h => first _ h1 r hr hprev fun p1 p2 => ?_⟩⟩
  · have : teLine (discreteSegment a b ns) chords = .error .valueError := by
      unfold teLine
      rw [if_neg (by rw [hlen]; exact h1)]
      match chords, h2 with
      | [], _ => rfl
      | [_], h2 => simp at h2
      | _ :: _ :: _, _ => rfl
    unfold makeAirfoilMesh
    simp only [this, bind, Except.bind]
  · unfold airfoilRow
    by_cases hd : distance.length ≤ r
    · rw [idx_error hd]; rfl
    · have hc : camber.length ≤ r := by tauto
      rw [idx_ok (not_le.1 hd), idx_error hc]; rfl
  · have e1 : idx distance r = .ok p := by simp [idx, hp]
    have e2 : idx camber r = .ok m := by simp [idx, hm]
    unfold airfoilRow
    simp only [e1, e2, bind, Except.bind]
    rw [C10_rejects m p 0.0 (nc + 1) (by tauto)]

/-- Non-vacuity: two rows with different cambers. -/
example : ValidSail 1 [2, 1] [0.4, 0.5] [0.1, 0.05] where
  chords_len := rfl
  distance_len := le_rfl
  camber_len := le_rfl
  camber_range := by
    intro m hm; simp at hm; rcases hm with rfl | rfl <;> norm_num
  distance_range := by
    intro m hm; simp at hm; rcases hm with rfl | rfl <;> norm_num

/-! ## C13, C14 -/

/-- **C13.** A mesh of `N + 1` lines of `M + 1` points gives `N * M` panels; panel number
`i * M + j` has the surrounding mesh points as corners SE, SW, NW, NE; chordwise neighbours share
the edge SE-NE / SW-NW and spanwise neighbours the edge NW-NE / SW-SE. -/
theorem C13_panels_tile (mesh : NdMesh) (N M : ℕ) (h0 : mesh.n0 = N + 1) (h1 : mesh.n1 = M + 1) :
    (makePanelsFromMeshSpanwise mesh).panels.length = N * M ∧
    (∀ i j, i < N → j < M → ∃ q, (makePanelsFromMeshSpanwise mesh).panels[i * M + j]? = some q ∧
      q.p1 = mesh.at' (i + 1) j ∧ q.p2 = mesh.at' i j ∧
      q.p3 = mesh.at' i (j + 1) ∧ q.p4 = mesh.at' (i + 1) (j + 1)) ∧
    (∀ i j q q', i + 1 < N → j < M →
      (makePanelsFromMeshSpanwise mesh).panels[i * M + j]? = some q →
      (makePanelsFromMeshSpanwise mesh).panels[(i + 1) * M + j]? = some q' →
      q.p1 = q'.p2 ∧ q.p4 = q'.p3) ∧
    (∀ i j q q', i < N → j + 1 < M →
      (makePanelsFromMeshSpanwise mesh).panels[i * M + j]? = some q →
      (makePanelsFromMeshSpanwise mesh).panels[i * M + (j + 1)]? = some q' →
      q.p3 = q'.p2 ∧ q.p4 = q'.p1) := by
  have hN : mesh.n0 - 1 = N := by omega
  have hM : mesh.n1 - 1 = M := by omega
  have key : ∀ i j, i < N → j < M →
      (makePanelsFromMeshSpanwise mesh).panels[i * M + j]? = some (panelAt mesh i j) := by
    intro i j hi hj
    simp only [makePanelsFromMeshSpanwise, hN, hM]
    exact grid_getElem? N M (panelAt mesh) hi hj
  refine ⟨?_, fun i j hi hj => ⟨_, key i j hi hj, rfl, rfl, rfl, rfl⟩, ?_, ?_⟩
  · simp only [makePanelsFromMeshSpanwise, hN, hM]
    exact grid_length N M (panelAt mesh)
  · intro i j q q' hi hj hq hq'
    rw [key i j (by omega) hj] at hq
    rw [key (i + 1) j hi hj] at hq'
    rw [← Option.some.inj hq, ← Option.some.inj hq']
    exact ⟨rfl, rfl⟩
  · intro i j q q' hi hj hq hq'
    rw [key i j hi (by omega)] at hq
    rw [key i (j + 1) hi hj] at hq'
    rw [← Option.some.inj hq, ← Option.some.inj hq']
    exact ⟨rfl, rfl⟩

/-- **C14.** The trailing edge flag is set exactly on the last chordwise row `i = N - 1`; the
leading edge flag exactly on row `0` when `N ≥ 2`, and nowhere when `N = 1`. -/
theorem C14_edge_flags (mesh : NdMesh) (N M : ℕ) (h0 : mesh.n0 = N + 1) (h1 : mesh.n1 = M + 1) :
    (makePanelsFromMeshSpanwise mesh).te.length = N * M ∧
    (makePanelsFromMeshSpanwise mesh).le.length = N * M ∧
    (∀ i j, i < N → j < M → ∃ t l, (makePanelsFromMeshSpanwise mesh).te[i * M + j]? = some t ∧
      (makePanelsFromMeshSpanwise mesh).le[i * M + j]? = some l ∧
      (t = true ↔ i + 1 = N) ∧ (l = true ↔ i = 0 ∧ 2 ≤ N)) := by
  have hN : mesh.n0 - 1 = N := by omega
  have hM : mesh.n1 - 1 = M := by omega
  refine ⟨?_, ?_, fun i j hi hj => ?_⟩
  · simp only [makePanelsFromMeshSpanwise, hN, hM]
    exact grid_length N M (fun i _ => if i + 2 = mesh.n0 then true else false)
  · simp only [makePanelsFromMeshSpanwise, hN, hM]
    exact grid_length N M
      (fun i _ => if i + 2 = mesh.n0 then false else if i = 0 then true else false)
  · refine ⟨if i + 2 = mesh.n0 then true else false,
      if i + 2 = mesh.n0 then false else if i = 0 then true else false, ?_, ?_, ?_, ?_⟩
    · simp only [makePanelsFromMeshSpanwise, hN, hM]
      exact grid_getElem? N M (fun i _ => if i + 2 = mesh.n0 then true else false) hi hj
    · simp only [makePanelsFromMeshSpanwise, hN, hM]
      exact grid_getElem? N M
        (fun i _ => if i + 2 = mesh.n0 then false else if i = 0 then true else false) hi hj
    · split_ifs with h
      · simp; omega
      · simp; omega
    · split_ifs with h h'
      · simp; omega
      · simp [h']; omega
      · simp [h']

/-- Non-vacuity: a 3 x 4 grid of points has 2 * 3 panels. -/
example : (makePanelsFromMeshSpanwise ⟨3, 4, fun i j => ⟨i, j, 0⟩⟩).panels.length = 2 * 3 :=
  (C13_panels_tile _ 2 3 rfl rfl).1

/-! ## C15 -/

/-- **C15 (partial).** For a panel whose chordwise edges `p1 p2` and `p4 p3` are parallel and
equally oriented (a plane trapezoid; all panels of an untwisted sail before cambering) the
computed area is the area of the quadrilateral.  Missing: plane quadrilaterals without this pair of
parallel edges, see `C15_refuted`. -/
theorem C15_panel_area_partial (q : Panel) (k : ℝ) (hk : 0 ≤ k)
    (h : q.p3 - q.p4 = k • (q.p2 - q.p1)) :
    getPanelsArea [q] = [quadArea q.p1 q.p2 q.p3 q.p4] := by
  have e4 : q.p4 = q.p3 - k • (q.p2 - q.p1) := by rw [← h]; abel
  obtain ⟨a, ha⟩ : ∃ a, a = q.p2 - q.p1 := ⟨_, rfl⟩
  obtain ⟨b, hb⟩ : ∃ b, b = q.p3 - q.p2 := ⟨_, rfl⟩
  have e5 : q.p4 - q.p3 = -(k • a) := by rw [e4, ha]; abel
  have e6 : q.p3 - q.p1 = a + b := by rw [ha, hb]; abel
  have e7 : q.p4 - q.p2 = b - k • a := by rw [e4, ha, hb]; abel
  simp only [getPanelsArea, List.map_cons, List.map_nil, panelArea, quadArea, e5, e6, e7, ← ha,
    ← hb, List.cons.injEq, and_true]
  have c1 : V3.cross b (-(k • a)) = k • V3.cross a b := by ext <;> simp <;> ring
  have c2 : V3.cross (a + b) (b - k • a) = (1 + k) • V3.cross a b := by ext <;> simp <;> ring
  rw [c1, c2, V3.norm_smul, V3.norm_smul, abs_of_nonneg hk, abs_of_nonneg (by linarith)]
  ring

/-- Non-vacuity: a genuine trapezoid. -/
example : (⟨1, 1, 0⟩ : V3) - ⟨3, 1, 0⟩ = (1 / 2 : ℝ) • ((⟨0, 0, 0⟩ : V3) - ⟨4, 0, 0⟩) := by
  ext <;> norm_num

/-- **C15 refuted** for general plane panels: the convex plane quadrilateral
`(0,0) (2,0) (2,2) (0,1)` has area 3, the code returns 4. -/
theorem C15_refuted :
    getPanelsArea [⟨⟨0, 0, 0⟩, ⟨2, 0, 0⟩, ⟨2, 2, 0⟩, ⟨0, 1, 0⟩⟩] = [4] ∧
    quadArea ⟨0, 0, 0⟩ ⟨2, 0, 0⟩ ⟨2, 2, 0⟩ ⟨0, 1, 0⟩ = 3 := by
  have n : ∀ (v : V3) (a : ℝ), 0 ≤ a → v.dot v = a ^ 2 → v.norm = a := by
    intro v a ha h
    rw [V3.norm, h, Real.sqrt_sq ha]
  constructor
  · simp only [getPanelsArea, List.map_cons, List.map_nil, panelArea]
    rw [n _ 4 (by norm_num) (by norm_num [V3.dot]), n _ 4 (by norm_num) (by norm_num [V3.dot])]
    norm_num
  · rw [quadArea, n _ 6 (by norm_num) (by norm_num [V3.dot])]
    norm_num

end PySailing.Props
