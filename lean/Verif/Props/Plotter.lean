import Verif.Lemmas.Plotter
import Verif.Props.Results
import Verif.Props.Similarity
import Verif.Props.Solver
import Verif.Demo.TwoPanels
import Verif.Lemmas.SailBlocks

/-!
# C56, C67-C69: the pictures
-/

namespace PySailing.Props

open PySailing Spec

/-! ## C56 -/

theorem inducedColors_ok {l : ℕ} : ((inducedColors l).length = l ∧ (inducedColors l).length % 2 = 0) ↔
    (l = 2 ∨ l = 4) := by
  unfold inducedColors
  split_ifs with h
  · subst h; simp
  · simp; omega

/-- **C56**: for one sail or two sails and their images (two or four blocks of panels) the picture has, in
this order, a green arrow for the true wind and a blue one for the apparent wind at every panel of the
first chordwise row of every block, and, on request, an arrow for the induced velocity at the pressure
point of each of these panels, coloured by block. -/
theorem C56_arrows {nc ns l : ℕ} (hnc : 0 < nc) (hns : 0 < ns) (hl : l = 2 ∨ l = 4) (water : ℤ)
    (inlet : Inlet) (ind : List V3) (show_ : Bool)
    (h1 : inlet.twsAtCp.length = l * (nc * ns)) (h2 : inlet.vAppInfs.length = l * (nc * ns))
    (h3 : inlet.cpPoints.length = l * (nc * ns)) (h4 : ind.length = l * (nc * ns)) :
    displayWinds (l * (nc * ns)) water inlet ind ns nc show_ = .ok (
      (firstRowArrows nc ns l fun _ k => windArrow (windOrigin water inlet.awaInfsDeg).1
        (windOrigin water inlet.awaInfsDeg).2 (row inlet.twsAtCp k) (row inlet.cpPoints k) "green") ++
      (firstRowArrows nc ns l fun _ k => windArrow (windOrigin water inlet.awaInfsDeg).1
        (windOrigin water inlet.awaInfsDeg).2 (row inlet.vAppInfs k) (row inlet.cpPoints k) "blue") ++
      if show_ then firstRowArrows nc ns l fun b k => windArrow (row inlet.cpPoints k).x
        (row inlet.cpPoints k).y (row ind k) (row inlet.cpPoints k) (if b % 2 = 0 then "peru" else "red")
      else []) := by
  have hl0 : 0 < l := by omega
  have hn : l * (nc * ns) / (ns * nc) = l := by
    rw [Nat.mul_comm ns nc]; exact Nat.mul_div_cancel _ (Nat.mul_pos hnc hns)
  have f1 := firstRows_eq hnc hl0 inlet.twsAtCp 0 h1
  have f2 := firstRows_eq hnc hl0 inlet.vAppInfs 0 h2
  have f3 := firstRows_eq hnc hl0 inlet.cpPoints 0 h3
  have f4 := firstRows_eq hnc hl0 ind 0 h4
  obtain ⟨T, hT⟩ : ∃ T, T = fun b j => inlet.twsAtCp.getD (panelNo nc ns b 0 j) 0 := ⟨_, rfl⟩
  obtain ⟨A, hA⟩ : ∃ A, A = fun b j => inlet.vAppInfs.getD (panelNo nc ns b 0 j) 0 := ⟨_, rfl⟩
  obtain ⟨P, hP⟩ : ∃ P, P = fun b j => inlet.cpPoints.getD (panelNo nc ns b 0 j) 0 := ⟨_, rfl⟩
  obtain ⟨I, hI⟩ : ∃ I, I = fun b j => ind.getD (panelNo nc ns b 0 j) 0 := ⟨_, rfl⟩
  rw [← hT] at f1; rw [← hA] at f2; rw [← hP] at f3; rw [← hI] at f4
  have len : ∀ f : ℕ → ℕ → V3, (gridArray l ns f).length = ns * l := fun f => by
    rw [gridArray_length, Nat.mul_comm]
  have plain : ∀ (W : ℕ → ℕ → V3) (color : String), color ≠ "red" → ∀ st : WindLoop,
      windLoop (inducedColors l) (gridArray l ns P) ns (gridArray l ns W) color st (List.range (ns * l)) =
        .ok (st, gridArray l ns fun b j => windArrow st.shiftX st.shiftY (W b j) (P b j) color) := by
    intro W color hc st
    rw [windLoop_plain _ ns hc _ _ _ _ (fun i hi => by rw [len]; exact List.mem_range.1 hi)
      (fun i hi => by rw [len]; exact List.mem_range.1 hi)]
    rw [map_range_grid W P 0 0 fun _ w p => windArrow st.shiftX st.shiftY w p color]
  have hcl : (inducedColors l).length = l := (inducedColors_ok.2 hl).1
  have red : ∀ st : WindLoop, st.counter = 0 → ∃ st', windLoop (inducedColors l) (gridArray l ns P) ns
      (gridArray l ns I) "red" st (List.range (ns * l)) = .ok (st', gridArray l ns fun b j =>
        windArrow (P b j).x (P b j).y (I b j) (P b j) (if b % 2 = 0 then "peru" else "red")) := by
    intro st hst
    obtain ⟨st', h⟩ := windLoop_red (inducedColors l) hns (gridArray l ns P) (gridArray l ns I) (ns * l) 0 st
      (by simp [hst]) (by rw [len]; omega) (by rw [len]; omega) (by rw [hcl]; omega)
    refine ⟨st', ?_⟩
    rw [← List.range_eq_range'] at h
    rw [h, map_range_grid P I 0 0 fun b p w => windArrow p.x p.y w p ((inducedColors l).getD b "")]
    congr 2
    apply gridArray_congr
    intro b j hb _
    congr 1
    unfold inducedColors
    rcases hl with rfl | rfl
    · have : b = 0 ∨ b = 1 := by omega
      rcases this with rfl | rfl <;> rfl
    · have : b = 0 ∨ b = 1 ∨ b = 2 ∨ b = 3 := by omega
      rcases this with rfl | rfl | rfl | rfl <;> rfl
  unfold displayWinds
  simp only
  rw [if_neg (Nat.mul_pos hns hnc).ne', hn]
  unfold windsToDraw
  simp only [f1, f2, f3, f4, bind, Except.bind, Except.map]
  cases show_ with
  | false =>
    simp only [Bool.false_eq_true, if_false, drawWinds, assertShapes, List.all_cons, List.all_nil, len,
      decide_true, Bool.and_self, if_true, bind, Except.bind, if_pos (inducedColors_ok.2 hl), windLoops,
      plain _ "green" (by decide), plain _ "blue" (by decide)]
    rw [List.append_nil, List.append_nil, hT, hA, hP]
    rfl
  | true =>
    obtain ⟨st', hr⟩ := red ⟨(windOrigin water inlet.awaInfsDeg).1, (windOrigin water inlet.awaInfsDeg).2, 0⟩ rfl
    have hr' : windLoop (inducedColors l) (gridArray l ns P) ns (gridArray l ns I) "red"
      { shiftX := -0.925 * ↑water * Real.cos (deg2rad (inlet.awaInfsDeg.sum / ↑inlet.awaInfsDeg.length)),
        shiftY := -0.925 * ↑water * Real.sin (deg2rad (inlet.awaInfsDeg.sum / ↑inlet.awaInfsDeg.length)),
        counter := 0 } (List.range (ns * l)) = _ := hr
    simp only [if_true, drawWinds, assertShapes, List.all_cons, List.all_nil, len,
      decide_true, Bool.and_self, bind, Except.bind, if_pos (inducedColors_ok.2 hl), windLoops,
      plain _ "green" (by decide), plain _ "blue" (by decide), hr']
    rw [List.append_nil, ← List.append_assoc, hT, hA, hP, hI]
    rfl

/-- **C56**: any other number of blocks (three or more sails) ends in an `AssertionError`. -/
theorem C56_other_counts {nc ns l : ℕ} (hnc : 0 < nc) (hns : 0 < ns) (hl0 : 0 < l) (hl : l ≠ 2 ∧ l ≠ 4)
    (water : ℤ) (inlet : Inlet) (ind : List V3) (show_ : Bool)
    (h1 : inlet.twsAtCp.length = l * (nc * ns)) (h2 : inlet.vAppInfs.length = l * (nc * ns))
    (h3 : inlet.cpPoints.length = l * (nc * ns)) (h4 : ind.length = l * (nc * ns)) :
    displayWinds (l * (nc * ns)) water inlet ind ns nc show_ = .error .assertionError := by
  have hn : l * (nc * ns) / (ns * nc) = l := by
    rw [Nat.mul_comm ns nc]; exact Nat.mul_div_cancel _ (Nat.mul_pos hnc hns)
  have hbad : ¬ ((inducedColors l).length = l ∧ (inducedColors l).length % 2 = 0) := by
    rw [inducedColors_ok]; omega
  unfold displayWinds
  simp only
  rw [if_neg (Nat.mul_pos hns hnc).ne', hn]
  unfold windsToDraw
  simp only [firstRows_eq hnc hl0 _ 0 h1, firstRows_eq hnc hl0 _ 0 h2, firstRows_eq hnc hl0 _ 0 h3,
    firstRows_eq hnc hl0 _ 0 h4, bind, Except.bind, Except.map]
  cases show_ <;>
  simp only [Bool.false_eq_true, if_false, if_true, drawWinds, assertShapes, List.all_cons, List.all_nil,
    gridArray_length, Nat.mul_comm l ns, decide_true, Bool.and_self, bind, Except.bind, if_neg hbad]

/-- **C56**: arrays that belong to another number of panels per row end in an `AssertionError`. -/
theorem C56_mismatch {nc ns l m : ℕ} (hnc : 0 < nc) (hns : 0 < ns) (hl0 : 0 < l) (hm : m ≠ ns)
    (water : ℤ) (inlet : Inlet) (ind : List V3) (show_ : Bool)
    (h1 : inlet.twsAtCp.length = l * (nc * m)) (h2 : inlet.vAppInfs.length = l * (nc * m))
    (h3 : inlet.cpPoints.length = l * (nc * m)) (h4 : ind.length = l * (nc * m)) :
    displayWinds (l * (nc * ns)) water inlet ind ns nc show_ = .error .assertionError := by
  have hn : l * (nc * ns) / (ns * nc) = l := by
    rw [Nat.mul_comm ns nc]; exact Nat.mul_div_cancel _ (Nat.mul_pos hnc hns)
  have hbad : ¬ (m * l = ns * l) := fun h => hm (Nat.eq_of_mul_eq_mul_right hl0 h)
  unfold displayWinds
  simp only
  rw [if_neg (Nat.mul_pos hns hnc).ne', hn]
  unfold windsToDraw
  simp only [firstRows_eq hnc hl0 _ 0 h1, firstRows_eq hnc hl0 _ 0 h2, firstRows_eq hnc hl0 _ 0 h3,
    firstRows_eq hnc hl0 _ 0 h4, bind, Except.bind, Except.map]
  cases show_ <;>
  simp only [Bool.false_eq_true, if_false, if_true, drawWinds, assertShapes, List.all_cons, List.all_nil,
    gridArray_length, Nat.mul_comm l m, hbad, decide_false, Bool.and_self, Bool.false_and, bind, Except.bind]

/-- Arrays of a mesh with two panels per row, drawn with one panel per row. -/
example (water : ℤ) (show_ : Bool) : displayWinds 2 water
    ⟨1, ⟨0, 0, 0, .flat⟩, List.replicate 4 0, List.replicate 4 0, [], List.replicate 4 0, [], []⟩
    (List.replicate 4 0) 1 1 show_ = .error .assertionError :=
  C56_mismatch (nc := 1) (ns := 1) (l := 2) (m := 2) (by norm_num) (by norm_num) (by norm_num) (by norm_num) water _ _ show_
    (by simp) (by simp) (by simp) (by simp)

/-- **C56** for a solved sail set of `n` sails: the arrows are drawn exactly for one or two sails. -/
theorem C56_vlm {a : VlmInput} {r : Vlm} (h : vlm a = .ok r) {n : ℕ} (hn : 0 < n)
    (hlen : a.panels.length = 2 * n * (a.nc * a.ns)) (water : ℤ) (show_ : Bool) :
    (n = 1 ∨ n = 2 → ∃ arrows, displayWinds r.vars.length water r.inlet r.out.vIndCp a.ns a.nc show_ =
      .ok arrows ∧ arrows.length = (if show_ then 3 else 2) * (2 * n * a.ns)) ∧
    (3 ≤ n → displayWinds r.vars.length water r.inlet r.out.vIndCp a.ns a.nc show_ =
      .error .assertionError) := by
  obtain ⟨-, hl, -, hv, -⟩ := vlm_lengths h
  obtain ⟨hin, hcp, hne⟩ := vlm_inlet h
  obtain ⟨-, ht, h3⟩ := (inletConditions_ok_iff _ _ _ _).1 hin
  have hpos : 0 < a.nc * a.ns := by
    have : 0 < r.vars.length := List.length_pos_of_ne_nil hne
    rcases Nat.eq_zero_or_pos (a.nc * a.ns) with h0 | h0
    · rw [hl, hlen, h0] at this; omega
    · exact h0
  have hnc : 0 < a.nc := Nat.pos_of_mul_pos_right hpos
  have hns : 0 < a.ns := Nat.pos_of_mul_pos_left hpos
  have c3 : r.inlet.cpPoints.length = 2 * n * (a.nc * a.ns) := by rw [hcp, List.length_map, hl, hlen]
  have c1 : r.inlet.twsAtCp.length = 2 * n * (a.nc * a.ns) := by
    rw [(mapM_ok_inv ht).1, c3]
  have c4 : r.out.vIndCp.length = 2 * n * (a.nc * a.ns) := by
    simp [Vlm.out, VlmSolution.arrays, hl, hlen]
  rw [hl, hlen]
  refine ⟨fun h12 => ⟨_, C56_arrows hnc hns (l := 2 * n) (by omega) water r.inlet r.out.vIndCp show_ c1
    (by rw [hv, hlen]) c3 c4, ?_⟩, fun h3 => C56_other_counts hnc hns (by omega) (by omega) water r.inlet
    r.out.vIndCp show_ c1 (by rw [hv, hlen]) c3 c4⟩
  cases show_ <;> simp [firstRowArrows, gridArray_length] <;> ring

/-- The two-panel demo run has one sail; its picture has four arrows. -/
example (water : ℤ) : ∃ r, vlm Demo.input2 = .ok r ∧
    ∃ arrows, displayWinds r.vars.length water r.inlet r.out.vIndCp 1 1 false = .ok arrows ∧
      arrows.length = 4 := by
  obtain ⟨r, hr, -⟩ := Demo.vlm_ok2
  refine ⟨r, hr, ?_⟩
  have := (C56_vlm hr (n := 1) one_pos (by rw [Demo.input2_panels]; rfl) water false).1 (Or.inl rfl)
  exact this

/-! ## C67 -/

/-- **C67**: when the sails exert a force at all, the picture shows it by exactly two arrows: one at the
centre of effort, in the direction of the total force of the sails, and one at the centre of lateral
resistance, equal and opposite.  Their length is 0.8 times the mean apparent wind speed at the panels,
whatever the size of the force. -/
theorem C67_force_arrows {sails : List SailGeom} {csys : Csys} {a : FlowArrays} {res : FlowResults}
    (h : inviscidFlow sails csys a = .ok res) (hF : res.forceTotal ≠ 0) (hne : a.vFsCp ≠ [])
    (hull : Hull) :
    ∃ plot ce, displayCeClr res hull = .ok plot ∧ res.centreOfEffort = .ok ce ∧
      ∃ d : V3, ∃ c : ℝ, plot.arrows = [⟨ce, ce + d, "black", 0.75⟩,
          ⟨hull.clr, hull.clr - d, "black", 0.75⟩] ∧
        d = c • res.forceTotal ∧ 0 ≤ c ∧ (0 < c ↔ ∃ v ∈ a.vFsCp, v ≠ 0) ∧
        d.norm = 0.8 * ((a.vFsCp.map V3.norm).sum / a.vFsCp.length) := by
  have hn : res.forceTotal.norm ≠ 0 := fun e => hF (V3.norm_eq_zero.1 e)
  have hpos : 0 < res.forceTotal.norm := lt_of_le_of_ne (V3.norm_nonneg _) (Ne.symm hn)
  have hvl : res.vFsLength = a.vFsCp.map V3.norm ∧ ∃ x M, res.centreOfEffort =
      determineVector res.forceTotal x M := by
    unfold inviscidFlow at h
    simp only [bind, Except.bind] at h
    repeat (split at h; · cases h)
    injection h with h
    subst h
    exact ⟨rfl, _, _, rfl⟩
  obtain ⟨hvl, x, M, hce⟩ := hvl
  have hdot : res.forceTotal.dot res.forceTotal ≠ 0 := by
    rw [← V3.norm_sq]; positivity
  unfold determineVector at hce
  rw [if_neg hdot] at hce
  obtain ⟨ce, hce⟩ : ∃ ce, res.centreOfEffort = .ok ce := ⟨_, hce⟩
  have hmne : a.vFsCp.map V3.norm ≠ [] := by simpa using hne
  obtain ⟨m, hm⟩ : ∃ m, m = (a.vFsCp.map V3.norm).sum / a.vFsCp.length := ⟨_, rfl⟩
  have hlen : (0 : ℝ) < a.vFsCp.length := by
    exact_mod_cast List.length_pos_of_ne_nil hne
  have hs0 : 0 ≤ (a.vFsCp.map V3.norm).sum := by
    apply List.sum_nonneg
    intro y hy
    obtain ⟨v, -, rfl⟩ := List.mem_map.1 hy
    exact V3.norm_nonneg _
  have hm0 : 0 ≤ m := by rw [hm]; positivity
  refine ⟨⟨0.8 * m, hull.clr, ce, (0.8 * m) • ((1 / res.forceTotal.norm) • res.forceTotal), _⟩, ce, ?_, hce,
    (0.8 * m) • ((1 / res.forceTotal.norm) • res.forceTotal), 0.8 * m * (1 / res.forceTotal.norm), rfl,
    by rw [smul_smul], by positivity, ?_, ?_⟩
  · unfold displayCeClr npMean normalize
    rw [hvl, if_neg hmne, if_neg hn, hce]
    simp only [bind, Except.bind, List.length_map, ← hm, plotVector, sub_eq_add_neg]
  · have e1 : 0 < 0.8 * m * (1 / res.forceTotal.norm) ↔ 0 < (a.vFsCp.map V3.norm).sum := by
      constructor
      · intro h1
        rcases hs0.lt_or_eq with h2 | h2
        · exact h2
        · rw [hm, ← h2] at h1; simp at h1
      · intro h1; rw [hm]; positivity
    rw [e1]
    constructor
    · intro h1
      by_contra hno
      push Not at hno
      have : (a.vFsCp.map V3.norm).sum = 0 := by
        apply List.sum_eq_zero
        intro y hy
        obtain ⟨v, hv, rfl⟩ := List.mem_map.1 hy
        rw [hno v hv]; exact V3.norm_eq_zero.2 rfl
      linarith
    · rintro ⟨v, hv, hv0⟩
      have h1 : v.norm ≤ (a.vFsCp.map V3.norm).sum := by
        apply List.single_le_sum (l := a.vFsCp.map V3.norm) _ _ (List.mem_map_of_mem hv)
        intro y hy
        obtain ⟨v, -, rfl⟩ := List.mem_map.1 hy
        exact V3.norm_nonneg _
      have : 0 < v.norm := lt_of_le_of_ne (V3.norm_nonneg _) (fun e => hv0 (V3.norm_eq_zero.1 e.symm))
      linarith
  · rw [V3.norm_smul, V3.norm_smul, abs_of_nonneg (by positivity), abs_of_pos (by positivity), ← hm]
    field_simp

/-- **C67**: without force there is no arrow (0/0 in the direction). -/
theorem C67_no_force {sails : List SailGeom} {csys : Csys} {a : FlowArrays} {res : FlowResults}
    (h : inviscidFlow sails csys a = .ok res) (hF : res.forceTotal = 0) (hull : Hull) :
    displayCeClr res hull = .error .nonFinite := by
  have hce : res.centreOfEffort = .error .nonFinite := by
    unfold inviscidFlow at h
    simp only [bind, Except.bind] at h
    repeat (split at h; · cases h)
    injection h with h
    subst h
    simp only at hF ⊢
    rw [hF]
    simp [determineVector, V3.dot]
  unfold displayCeClr npMean
  rw [hce]
  split_ifs <;> rfl

/-- Non-vacuity of C67: two panels of one sail and its image, with unit force on each. -/
example (hull : Hull) (csys : Csys) (g : SailGeom) :
    ∃ (a : FlowArrays) (res : FlowResults), inviscidFlow [g] csys a = .ok res ∧ res.forceTotal ≠ 0 ∧
      a.vFsCp ≠ [] := by
  obtain ⟨res, h, -, -, hF, -⟩ := inviscidFlow_ok (sails := [g]) (m := 1) (by simp) csys
    { gamma := [1, 1], pressure := [1, 1], vIndCp := [0, 0], vFsCp := [⟨1, 0, 0⟩, ⟨1, 0, 0⟩],
      force := [⟨1, 0, 0⟩, ⟨1, 0, 0⟩], cp := [0, 0] } rfl rfl
  refine ⟨_, res, h, ?_, by simp⟩
  rw [hF]
  simp [row, V3.ext_iff]

/-! ## C68 -/

theorem foldl_max_spec (xs : List ℝ) : ∀ x : ℝ, xs.foldl max x ∈ x :: xs ∧ ∀ y ∈ x :: xs,
    y ≤ xs.foldl max x := by
  induction xs with
  | nil => intro x; simp
  | cons z xs ih =>
    intro x
    obtain ⟨h1, h2⟩ := ih (max x z)
    simp only [List.foldl_cons]
    refine ⟨?_, ?_⟩
    · rcases List.mem_cons.1 h1 with e | e
      · rw [e]; rcases max_choice x z with h | h <;> rw [h] <;> simp
      · simp [e]
    · intro y hy
      have h3 := h2 (max x z) (by simp)
      rcases List.mem_cons.1 hy with rfl | hy
      · exact (le_max_left _ _).trans h3
      · rcases List.mem_cons.1 hy with rfl | hy
        · exact (le_max_right _ _).trans h3
        · exact h2 y (by simp [hy])

theorem foldl_min_spec (xs : List ℝ) : ∀ x : ℝ, xs.foldl min x ∈ x :: xs ∧ ∀ y ∈ x :: xs,
    xs.foldl min x ≤ y := by
  induction xs with
  | nil => intro x; simp
  | cons z xs ih =>
    intro x
    obtain ⟨h1, h2⟩ := ih (min x z)
    simp only [List.foldl_cons]
    refine ⟨?_, ?_⟩
    · rcases List.mem_cons.1 h1 with e | e
      · rw [e]; rcases min_choice x z with h | h <;> rw [h] <;> simp
      · simp [e]
    · intro y hy
      have h3 := h2 (min x z) (by simp)
      rcases List.mem_cons.1 hy with rfl | hy
      · exact h3.trans (min_le_left _ _)
      · rcases List.mem_cons.1 hy with rfl | hy
        · exact h3.trans (min_le_right _ _)
        · exact h2 y (by simp [hy])

theorem pyMax_ok {xs : List ℝ} (h : xs ≠ []) : ∃ m, pyMax xs = .ok m ∧ m ∈ xs ∧ ∀ x ∈ xs, x ≤ m := by
  cases xs with
  | nil => exact absurd rfl h
  | cons x xs => exact ⟨_, rfl, foldl_max_spec xs x⟩

theorem pyMin_ok {xs : List ℝ} (h : xs ≠ []) : ∃ m, pyMin xs = .ok m ∧ m ∈ xs ∧ ∀ x ∈ xs, m ≤ x := by
  cases xs with
  | nil => exact absurd rfl h
  | cons x xs => exact ⟨_, rfl, foldl_min_spec xs x⟩

/-- The size of the water surface. -/
theorem waterSize_ok {vars : List PanelVars} (h : vars ≠ []) : ∃ (w : ℤ) (m : ℝ),
    waterSize (vars.map PanelVars.leMid) (vars.map PanelVars.teMid) = .ok w ∧
    (∃ v ∈ vars, m = |v.leMid.z| ∨ m = |v.teMid.z|) ∧
    (∀ v ∈ vars, |v.leMid.z| ≤ m ∧ |v.teMid.z| ≤ m) ∧ w = ⌊(1.1 : ℝ) * (⌈m⌉ : ℤ)⌋ := by
  obtain ⟨a, ha, ha1, ha2⟩ := pyMax_ok (xs := (vars.map PanelVars.leMid).map fun p => |p.z|) (by simpa)
  obtain ⟨b, hb, hb1, hb2⟩ := pyMax_ok (xs := (vars.map PanelVars.teMid).map fun p => |p.z|) (by simpa)
  refine ⟨_, max a b, by unfold waterSize; rw [ha, hb]; rfl, ?_, ?_, rfl⟩
  · simp only [List.mem_map, exists_exists_and_eq_and] at ha1 hb1
    obtain ⟨v, hv, ev⟩ := ha1
    obtain ⟨u, hu, eu⟩ := hb1
    rcases max_choice a b with e | e
    · exact ⟨v, hv, Or.inl (by rw [e, ev])⟩
    · exact ⟨u, hu, Or.inr (by rw [e, eu])⟩
  · intro v hv
    exact ⟨(ha2 _ (by simp; exact ⟨v, hv, rfl⟩)).trans (le_max_left _ _),
      (hb2 _ (by simp; exact ⟨v, hv, rfl⟩)).trans (le_max_right _ _)⟩

/-- What `display_panels_xyz` returns. -/
theorem displayPanels_ok_iff {r : Vlm} {mode : String} {p : PanelPlot}
    (h : displayPanels r mode = .ok p) : p.polygons = r.input.panels.zip (colourData r mode) ∧
      pyMin (colourData r mode) = .ok p.vmin ∧ pyMax (colourData r mode) = .ok p.vmax ∧
      waterSize (r.vars.map PanelVars.leMid) (r.vars.map PanelVars.teMid) = .ok p.water ∧
      axisLimits p.water = .ok (p.xlim, p.ylim, p.zlim) := by
  unfold displayPanels at h
  simp only [bind, Except.bind] at h
  split at h
  · cases h
  rename_i lo hlo
  split at h
  · cases h
  rename_i hi hhi
  split at h
  · cases h
  rename_i w hw
  split at h
  · cases h
  rename_i l hl
  injection h with h
  subst h
  exact ⟨rfl, hlo, hhi, hw, hl⟩

/-- **C68**: in the picture of a VLM run every panel is drawn, with the colour of its own pressure
coefficient, and the ends of the colour scale are the smallest and the largest coefficient. -/
theorem C68_panel_colours {a : VlmInput} {r : Vlm} (h : vlm a = .ok r) {p : PanelPlot}
    (hp : displayPanels r "p_coeffs" = .ok p) :
    p.polygons.length = a.panels.length ∧
    (∀ k (hk : k < a.panels.length), p.polygons[k]? = some (a.panels[k], r.out.pCoeffs.getD k 0)) ∧
    p.vmin ∈ r.out.pCoeffs ∧ p.vmax ∈ r.out.pCoeffs ∧
    ∀ c ∈ r.out.pCoeffs, p.vmin ≤ c ∧ c ≤ p.vmax := by
  obtain ⟨hin, hl, -⟩ := vlm_lengths h
  have hlc : r.out.pCoeffs.length = a.panels.length := by simp [Vlm.out, VlmSolution.arrays, hl]
  obtain ⟨h1, h2, h3, -⟩ := displayPanels_ok_iff hp
  have hcd : colourData r "p_coeffs" = r.out.pCoeffs := by simp [colourData]
  rw [hcd] at h1 h2 h3
  have hne : r.out.pCoeffs ≠ [] := by
    intro e; rw [e] at h2; cases h2
  obtain ⟨m, hm, hm1, hm2⟩ := pyMin_ok hne
  obtain ⟨M, hM, hM1, hM2⟩ := pyMax_ok hne
  rw [h2] at hm; rw [h3] at hM
  injection hm with hm; injection hM with hM
  subst hm; subst hM
  refine ⟨by rw [h1, hin]; simp [hlc], fun k hk => ?_, hm1, hM1, fun c hc => ⟨hm2 c hc, hM2 c hc⟩⟩
  have hk' : k < r.out.pCoeffs.length := by omega
  rw [h1, hin, List.getElem?_zip_eq_some]
  exact ⟨List.getElem?_eq_getElem hk, by simp [List.getD_eq_getElem?_getD, hk']⟩

/-- **C68**: the panels of a solved lattice can be drawn unless all mid points of leading and trailing
panel edges lie in the water plane. -/
theorem C68_drawn {a : VlmInput} {r : Vlm} (h : vlm a = .ok r) (mode : String)
    (hz : ∃ v ∈ r.vars, v.leMid.z ≠ 0 ∨ v.teMid.z ≠ 0) : ∃ p, displayPanels r mode = .ok p := by
  obtain ⟨-, hl, -⟩ := vlm_lengths h
  obtain ⟨v, hv, hvz⟩ := hz
  have hne : r.vars ≠ [] := List.ne_nil_of_mem hv
  have hlen : 0 < r.vars.length := List.length_pos_of_ne_nil hne
  have hcne : colourData r mode ≠ [] := by
    intro e
    have : (colourData r mode).length = r.vars.length := by
      unfold colourData
      split_ifs <;> simp [Vlm.out, VlmSolution.arrays]
    rw [e] at this
    simp at this; omega
  obtain ⟨m, hm, -⟩ := pyMin_ok hcne
  obtain ⟨M, hM, -⟩ := pyMax_ok hcne
  obtain ⟨w, z, hw, -, hz2, hwz⟩ := waterSize_ok hne
  have hzpos : 0 < z := by
    obtain ⟨h1, h2⟩ := hz2 v hv
    rcases hvz with h | h
    · exact lt_of_lt_of_le (abs_pos.2 h) h1
    · exact lt_of_lt_of_le (abs_pos.2 h) h2
  have hc : 1 ≤ ⌈z⌉ := Int.one_le_ceil_iff.2 hzpos
  have hw1 : 0 < w := by
    rw [hwz]
    apply Int.floor_pos.2
    have : (1 : ℝ) ≤ (⌈z⌉ : ℤ) := by exact_mod_cast hc
    linarith
  unfold displayPanels
  simp only [hm, hM, hw, bind, Except.bind, axisLimits, if_neg (not_le.2 hw1)]
  exact ⟨_, rfl⟩

/-- **C68, refuted for the other mode**: the picture whose title says "colored by optimal circulation"
shows the pressure instead: there is a solved lattice for which the number that colours some panel is not
its circulation. -/
theorem C68_refuted_circulation : ∃ (a : VlmInput) (r : Vlm) (p : PanelPlot), vlm a = .ok r ∧
    displayPanels r "gamma_magnitude" = .ok p ∧ p.polygons.map Prod.snd = r.out.pressure ∧
    p.polygons.map Prod.snd ≠ r.out.gamma := by
  by_contra hcon
  push Not at hcon
  obtain ⟨r, h, hV, hv, -⟩ := Demo.vlm_ok2
  have key : ∀ a r, vlm a = .ok r → (∃ v ∈ r.vars, v.leMid.z ≠ 0 ∨ v.teMid.z ≠ 0) →
      r.out.pressure = r.out.gamma := by
    intro a r h hz
    obtain ⟨p, hp⟩ := C68_drawn h "gamma_magnitude" hz
    obtain ⟨hin, hl, -⟩ := vlm_lengths h
    have e : p.polygons.map Prod.snd = r.out.pressure := by
      rw [(displayPanels_ok_iff hp).1]
      have : colourData r "gamma_magnitude" = r.out.pressure := by simp [colourData]
      rw [this, List.map_snd_zip]
      simp [Vlm.out, VlmSolution.arrays, hl, hin]
    rw [← hcon a r p h hp e, e]
  have hvz : ∃ v ∈ r.vars, v.leMid.z ≠ 0 ∨ v.teMid.z ≠ 0 := by
    rw [hv]
    refine ⟨_, List.mem_cons_self, Or.inl ?_⟩
    simp [Demo.vars]
  have h1 := key _ r h hvz
  obtain ⟨-, r', h', -, ho, -⟩ := C38_density Demo.input2 2 (by norm_num) (by norm_num [Demo.input2]) r h
  have hvars : r'.vars = r.vars := by
    obtain ⟨-, -, e1, -, -⟩ := (vlm_ok_iff _ _).1 h
    obtain ⟨-, -, e2, -, -⟩ := (vlm_ok_iff _ _).1 h'
    have e3 : (Except.ok r'.vars : Py _) = .ok r.vars := by rw [← e1, ← e2]
    injection e3
  have h2 := key _ r' h' (by rw [hvars]; exact hvz)
  rw [ho] at h2
  have h3 : (r.out.pressure.map fun x => 2 / Demo.input2.rho * x) = r.out.gamma := by
    simpa [mapAll] using h2
  have hgz : ∀ i, r.sol.gamma i = 0 := by
    intro i
    have e1 : (r.out.gamma)[i.val]? = some (r.sol.gamma i) := by simp [Vlm.out, VlmSolution.arrays]
    have e2 : (r.out.pressure)[i.val]? = some (r.sol.gamma i) := by rw [h1, e1]
    have e3 : (r.out.gamma)[i.val]? = some (2 / Demo.input2.rho * r.sol.gamma i) := by
      rw [← h3, List.getElem?_map, e2]; rfl
    rw [e1] at e3
    injection e3 with e3
    have : Demo.input2.rho = 1 := rfl
    rw [this] at e3
    linarith
  have hlen : 0 < r.vars.length := by rw [hv]; simp
  have f1 := ((C30_no_flow _ r h).1 ⟨0, hlen⟩).2.2
  have f2 := ((C30_no_flow _ r h).1 ⟨0, hlen⟩).2.1
  have hind : inducedBy r r.sol.gamma (r.vars[(⟨0, hlen⟩ : Fin r.vars.length)]).ctrP = 0 := by
    unfold inducedBy latticeVelocity
    have : r.sol.gamma = fun _ => 0 := funext hgz
    rw [this]; simp
  have hv0 : r.vars[(⟨0, hlen⟩ : Fin r.vars.length)] = Demo.vars (-1) := by
    have : r.vars[0]? = some (Demo.vars (-1)) := by rw [hv]; rfl
    exact (List.getElem?_eq_some_iff.1 this).2
  have hwind : windAt r ⟨0, hlen⟩ = Demo.V := by
    unfold windAt; rw [hV]; rfl
  rw [f2, hind, add_zero, hv0, hwind] at f1
  simp [Demo.V, Demo.vars, V3.dot] at f1

/-- Non-vacuity of C68: the demo run can be drawn. -/
example : ∃ r p, vlm Demo.input2 = .ok r ∧ displayPanels r "p_coeffs" = .ok p := by
  obtain ⟨r, h, hV, hv, -⟩ := Demo.vlm_ok2
  obtain ⟨p, hp⟩ := C68_drawn h "p_coeffs" (by
    rw [hv]
    refine ⟨_, List.mem_cons_self, Or.inl ?_⟩
    simp [Demo.vars])
  exact ⟨r, p, h, hp⟩

/-! ## C70 -/

/-- The limits of the axes, for a water surface of size `w`. -/
theorem axisLimits_ok {w : ℤ} {l : (ℝ × ℝ) × (ℝ × ℝ) × (ℝ × ℝ)} (h : axisLimits w = .ok l) :
    0 < w ∧ l = ((-(w : ℝ), (w : ℝ) - 1), (-(w : ℝ), (w : ℝ) - 1), (-((w : ℝ) - 1 / 2), (w : ℝ) - 1 / 2)) := by
  unfold axisLimits at h
  split_ifs at h with hw
  have hw' : 0 < w := by omega
  have h1 : (1 : ℝ) ≤ w := by exact_mod_cast hw'
  injection h with h
  refine ⟨hw', ?_⟩
  rw [← h]
  have e : max (max ((w : ℝ) - 1 - -w) ((w : ℝ) - 1 - -w)) (0 - 0) = 2 * w - 1 := by
    rw [max_self, max_eq_left (by linarith)]; ring
  simp only [e, Prod.mk.injEq]
  refine ⟨⟨?_, ?_⟩, ⟨?_, ?_⟩, ?_, ?_⟩ <;> ring

/-- **C70**: the three axes of the picture always have the same scale (intervals of equal length), the
one for heights is symmetrical about the water plane, and it contains the mid points of all leading and
trailing panel edges if one of these is more than nine metres away from the water plane. -/
theorem C70_axes_partial {r : Vlm} {mode : String} {p : PanelPlot} (hp : displayPanels r mode = .ok p) :
    p.xlim.2 - p.xlim.1 = p.zlim.2 - p.zlim.1 ∧ p.ylim.2 - p.ylim.1 = p.zlim.2 - p.zlim.1 ∧
    p.zlim.1 < p.zlim.2 ∧ p.zlim.1 = -p.zlim.2 ∧
    ((∃ v ∈ r.vars, 9 < |v.leMid.z| ∨ 9 < |v.teMid.z|) → ∀ v ∈ r.vars,
      p.zlim.1 ≤ v.leMid.z ∧ v.leMid.z ≤ p.zlim.2 ∧ p.zlim.1 ≤ v.teMid.z ∧ v.teMid.z ≤ p.zlim.2) := by
  obtain ⟨-, -, -, hw, hax⟩ := displayPanels_ok_iff hp
  obtain ⟨hw0, hl⟩ := axisLimits_ok hax
  simp only [Prod.mk.injEq] at hl
  obtain ⟨hx, hy, hz⟩ := hl
  have h1 : (1 : ℝ) ≤ p.water := by exact_mod_cast hw0
  rw [hx, hy, hz]
  simp only
  refine ⟨by ring, by ring, by linarith, trivial, ?_⟩
  rintro ⟨v, hv, h9⟩ u hu
  obtain ⟨w, m, hw', -, hm, hwm⟩ := waterSize_ok (List.ne_nil_of_mem hv)
  rw [hw] at hw'
  injection hw' with e
  rw [← e] at hwm
  have hm9 : 9 < m := by
    rcases h9 with h | h
    · exact h.trans_le (hm v hv).1
    · exact h.trans_le (hm v hv).2
  have hc : (10 : ℤ) ≤ ⌈m⌉ := by
    have : (9 : ℤ) < ⌈m⌉ := Int.lt_ceil.2 (by exact_mod_cast hm9)
    omega
  have hfl : ⌈m⌉ + 1 ≤ p.water := by
    rw [hwm]
    apply Int.le_floor.2
    push_cast
    have : (10 : ℝ) ≤ (⌈m⌉ : ℤ) := by exact_mod_cast hc
    linarith
  have hmw : m + 1 ≤ p.water := by
    have h2 : ((⌈m⌉ : ℤ) : ℝ) + 1 ≤ p.water := by exact_mod_cast hfl
    linarith [Int.le_ceil m]
  obtain ⟨g1, g2⟩ := hm u hu
  have g1 := abs_le.1 g1
  have g2 := abs_le.1 g2
  refine ⟨?_, ?_, ?_, ?_⟩ <;> linarith [g1.1, g1.2, g2.1, g2.2]

/-- **C70, refuted**: the axes need not contain the sails: a square sail between heights 1 and 2 is drawn
on axes that end at height 3/2. -/
theorem C70_refuted : ∃ (a : VlmInput) (r : Vlm) (p : PanelPlot), vlm a = .ok r ∧
    displayPanels r "p_coeffs" = .ok p ∧ ∃ q ∈ p.polygons, p.zlim.2 < q.1.p4.z := by
  obtain ⟨r, h, hV, hv, -⟩ := Demo.vlm_ok2
  obtain ⟨p, hp⟩ := C68_drawn h "p_coeffs" (by
    rw [hv]
    refine ⟨_, List.mem_cons_self, Or.inl ?_⟩
    simp [Demo.vars])
  refine ⟨_, r, p, h, hp, ?_⟩
  obtain ⟨-, -, -, hw, hax⟩ := displayPanels_ok_iff hp
  obtain ⟨hw0, hl⟩ := axisLimits_ok hax
  simp only [Prod.mk.injEq] at hl
  obtain ⟨h1, h2, -⟩ := C68_panel_colours h hp
  have h0 : 0 < Demo.input2.panels.length := by rw [Demo.input2_panels]; simp
  have hq := h2 0 h0
  refine ⟨_, List.mem_of_getElem? hq, ?_⟩
  have hp0 : Demo.input2.panels[0] = Demo.panel := by simp [Demo.input2_panels]
  have hwv : p.water = 2 := by
    have e : waterSize (r.vars.map PanelVars.leMid) (r.vars.map PanelVars.teMid) = .ok 2 := by
      obtain ⟨w, m, hw', ⟨v, hvm, hvz⟩, -, hwm⟩ := waterSize_ok (vars := r.vars) (by rw [hv]; simp)
      rw [hw', hwm]
      have hm : m = 3 / 2 := by
        rw [hv] at hvm
        simp only [List.mem_cons, List.not_mem_nil, or_false] at hvm
        rcases hvm with rfl | rfl <;> rcases hvz with e | e <;> rw [e] <;>
          norm_num [Demo.vars, PanelVars.mirrored, mirror, abs_of_pos, abs_of_neg]
      have hc : ⌈m⌉ = 2 := by rw [hm, Int.ceil_eq_iff]; norm_num
      rw [hc]
      congr 1
      rw [Int.floor_eq_iff]; norm_num
    rw [hw] at e
    injection e
  rw [hl.2.2, hwv, hp0]
  norm_num [Demo.panel]

/-- **C70, exactly where the heights are in the picture.**  Let `m` be the greatest distance from the water
plane of the mid points of the leading and trailing panel edges.  The axis for heights contains all of these
points exactly if `m` is more than nine metres, or rounding it up to full metres adds at least half a metre. -/
theorem C70_exact {r : Vlm} {mode : String} {p : PanelPlot} (hp : displayPanels r mode = .ok p) {m : ℝ}
    (hm : IsGreatest {z | ∃ v ∈ r.vars, z = |v.leMid.z| ∨ z = |v.teMid.z|} m) :
    (∀ v ∈ r.vars, p.zlim.1 ≤ v.leMid.z ∧ v.leMid.z ≤ p.zlim.2 ∧ p.zlim.1 ≤ v.teMid.z ∧ v.teMid.z ≤ p.zlim.2) ↔
      9 < m ∨ m + 1 / 2 ≤ ⌈m⌉ := by
  obtain ⟨⟨v, hv, hvm⟩, hup⟩ := hm
  have hle : ∀ u ∈ r.vars, |u.leMid.z| ≤ m ∧ |u.teMid.z| ≤ m := fun u hu =>
    ⟨hup ⟨u, hu, Or.inl rfl⟩, hup ⟨u, hu, Or.inr rfl⟩⟩
  by_cases h9 : 9 < m
  · refine ⟨fun _ => Or.inl h9, fun _ => (C70_axes_partial hp).2.2.2.2 ⟨v, hv, ?_⟩⟩
    rcases hvm with e | e
    · exact Or.inl (e ▸ h9)
    · exact Or.inr (e ▸ h9)
  obtain ⟨-, -, -, hw, hax⟩ := displayPanels_ok_iff hp
  obtain ⟨hw0, hl⟩ := axisLimits_ok hax
  simp only [Prod.mk.injEq] at hl
  obtain ⟨-, -, hz⟩ := hl
  obtain ⟨w, m', hw', ⟨u, hu, hum⟩, hm', hwm⟩ := waterSize_ok (List.ne_nil_of_mem hv)
  have hmm : m' = m := by
    apply le_antisymm
    · rcases hum with e | e
      · exact e ▸ (hle u hu).1
      · exact e ▸ (hle u hu).2
    · rcases hvm with e | e
      · exact e ▸ (hm' v hv).1
      · exact e ▸ (hm' v hv).2
  subst hmm
  rw [hw] at hw'
  injection hw' with e
  rw [← e] at hwm
  have hm0 : 0 ≤ m' := by rcases hvm with e | e <;> rw [e] <;> exact abs_nonneg _
  have hc0 : 0 ≤ ⌈m'⌉ := Int.ceil_nonneg hm0
  have hc9 : ⌈m'⌉ ≤ 9 := Int.ceil_le.2 (by push_cast; linarith)
  have hwc : p.water = ⌈m'⌉ := by
    rw [hwm, Int.floor_eq_iff]
    have h1 : (0 : ℝ) ≤ (⌈m'⌉ : ℤ) := by exact_mod_cast hc0
    have h2 : ((⌈m'⌉ : ℤ) : ℝ) ≤ 9 := by exact_mod_cast hc9
    constructor <;> linarith
  rw [hz, hwc]
  simp only
  constructor
  · intro h
    right
    obtain ⟨a, b, c, d⟩ := h v hv
    rcases hvm with e | e
    · have := abs_le.2 ⟨a, b⟩; linarith
    · have := abs_le.2 ⟨c, d⟩; linarith
  · rintro (h | h)
    · exact absurd h h9
    intro x hx
    obtain ⟨a, b⟩ := hle x hx
    have a := abs_le.1 a
    have b := abs_le.1 b
    refine ⟨?_, ?_, ?_, ?_⟩ <;> linarith [a.1, a.2, b.1, b.2]

/-- Non-vacuity of `C70_exact`: the mid points of the demo sail reach a height of 3/2 metres, which is just in
the picture (its upper corners are not, `C70_refuted`). -/
example : ∃ r p, vlm Demo.input2 = .ok r ∧ displayPanels r "p_coeffs" = .ok p ∧
    IsGreatest {z | ∃ v ∈ r.vars, z = |v.leMid.z| ∨ z = |v.teMid.z|} (3 / 2) := by
  obtain ⟨r, h, hV, hv, -⟩ := Demo.vlm_ok2
  obtain ⟨p, hp⟩ := C68_drawn h "p_coeffs" (by
    rw [hv]
    refine ⟨_, List.mem_cons_self, Or.inl ?_⟩
    simp [Demo.vars])
  refine ⟨r, p, h, hp, ?_, ?_⟩
  · rw [hv]
    exact ⟨_, List.mem_cons_self, Or.inl (by norm_num [Demo.vars])⟩
  · rintro z ⟨v, hvm, hvz⟩
    rw [hv] at hvm
    simp only [List.mem_cons, List.not_mem_nil, or_false] at hvm
    rcases hvm with rfl | rfl <;> rcases hvz with e | e <;> rw [e] <;>
      norm_num [Demo.vars, PanelVars.mirrored, mirror, abs_of_pos, abs_of_neg]

/-! ## C69 -/

theorem zeroMesh_blocks {nc ns : ℕ} {ss : List (SailInput × (ℕ → ℝ))} {sails : List SailGeom}
    (h : List.Forall₂ (BuiltFrom nc ns) ss sails) {set : SailSet} (hs : sailSet sails = .ok set) :
    set.zeroMesh = blockPanels nc ns ((ss.map fun s => uprightPoints s.1) ++
      ss.map fun s => uprightImagePoints s.1) := by
  have hab : ((sails.map SailGeom.panelsAboveZero).flatten =
        blockPanels nc ns (ss.map fun s => uprightPoints s.1)) ∧
      ((sails.map SailGeom.panelsUnderZero).flatten =
        blockPanels nc ns (ss.map fun s => uprightImagePoints s.1)) := by
    clear hs
    induction h with
    | nil => simp [blockPanels]
    | cons hb _ ih =>
      obtain ⟨hok, rfl, rfl, hg⟩ := hb
      obtain ⟨g, hg', -, -, -, -, -, -, h1, h2, -, -⟩ := sailGeometry_ok hok
      rw [hg] at hg'
      injection hg' with e
      subst e
      simp only [List.map_cons, List.flatten_cons, ih.1, ih.2, h1, h2]
      exact ⟨rfl, rfl⟩
  unfold sailSet at hs
  by_cases h0 : sails = []
  · rw [if_pos h0] at hs; cases hs
  rw [if_neg h0] at hs
  injection hs with hs
  subst hs
  simp only [hab.1, hab.2]
  exact blockPanels_append _ _ _ _

theorem blockPanels_get {nc ns b i j : ℕ} {blocks : List (ℕ → ℕ → V3)} (hb : b < blocks.length)
    (hi : i < nc) (hj : j < ns) :
    (blockPanels nc ns blocks)[panelNo nc ns b i j]? = some (panelOf blocks[b] i j) := by
  have e : blockPanels nc ns blocks = blockArray nc ns blocks.length fun b i j =>
      panelOf (blocks.getD b fun _ _ => 0) i j := by
    unfold blockPanels blockArray
    congr 1
    apply List.ext_getElem
    · simp
    · intro k h1 h2
      simp at h1
      simp [h1, panelGrid, gridArray, panelOf]
  rw [e, blockArray_get _ hb hi hj]
  simp [hb]

/-- **C69**: the map of the pressure coefficient shows, for every panel of every sail and of every image,
the closed outline, seen from the side, that the panel has on the upright yacht before twist, with the
pressure coefficient computed for this very panel in its heeled and twisted position. -/
theorem C69_cp_map {nc ns : ℕ} {ss : List (SailInput × (ℕ → ℝ))} {sails : List SailGeom}
    (hb : List.Forall₂ (BuiltFrom nc ns) ss sails) {set : SailSet} (hs : sailSet sails = .ok set)
    {a : VlmInput} (ha : a.panels = set.panels) {r : Vlm} (h : vlm a = .ok r) :
    ∃ m, plotCp set.zeroMesh r.out.pCoeffs = .ok m ∧ m.length = a.panels.length ∧
      ∀ b i j (_ : b < ss.length), i < nc → j < ns →
        (a.panels[panelNo nc ns b i j]? = some (panelOf (abovePoints ss[b]) i j) ∧
          m[panelNo nc ns b i j]? = some (closedOutline (panelOf (uprightPoints ss[b].1) i j),
            r.out.pCoeffs.getD (panelNo nc ns b i j) 0)) ∧
        (a.panels[panelNo nc ns (ss.length + b) i j]? = some (panelOf (underPoints ss[b]) i j) ∧
          m[panelNo nc ns (ss.length + b) i j]? = some (closedOutline (panelOf (uprightImagePoints ss[b].1) i j),
            r.out.pCoeffs.getD (panelNo nc ns (ss.length + b) i j) 0)) := by
  obtain ⟨hp, -, -⟩ := sailSet_blocks hb hs
  have hz := zeroMesh_blocks hb hs
  obtain ⟨-, hl, -⟩ := vlm_lengths h
  have hplen : a.panels.length = 2 * ss.length * (nc * ns) := by
    rw [ha, hp, blockPanels_length, List.length_append, List.length_map, List.length_map]; ring
  have hclen : r.out.pCoeffs.length = a.panels.length := by simp [Vlm.out, VlmSolution.arrays, hl]
  have hzlen : set.zeroMesh.length = r.out.pCoeffs.length := by
    rw [hz, blockPanels_length, hclen, hplen, List.length_append, List.length_map, List.length_map]; ring
  refine ⟨_, if_pos hzlen, by simp [hzlen, hclen], fun b i j hbl hi hj => ?_⟩
  have get : ∀ c q, c < 2 * ss.length → set.zeroMesh[panelNo nc ns c i j]? = some q →
      ((set.zeroMesh.map sideView).zip r.out.pCoeffs)[panelNo nc ns c i j]? =
        some (closedOutline q, r.out.pCoeffs.getD (panelNo nc ns c i j) 0) := by
    intro c q hc hq
    have hlt : panelNo nc ns c i j < r.out.pCoeffs.length := by
      rw [hclen, hplen]; exact panelNo_lt hc hi hj
    rw [List.getElem?_zip_eq_some]
    refine ⟨by rw [List.getElem?_map, hq]; rfl, by simp [List.getD_eq_getElem?_getD, hlt]⟩
  refine ⟨⟨?_, get b _ (by omega) ?_⟩, ?_, get _ _ (by omega) ?_⟩
  · rw [ha, hp, blockPanels_get (by simp; omega) hi hj]
    rw [List.getElem_append_left (by simpa)]; simp
  · rw [hz, blockPanels_get (by simp; omega) hi hj]
    rw [List.getElem_append_left (by simpa)]; simp
  · rw [ha, hp, blockPanels_get (by simp; omega) hi hj]
    rw [List.getElem_append_right (by simp)]; simp
  · rw [hz, blockPanels_get (by simp; omega) hi hj]
    rw [List.getElem_append_right (by simp)]; simp

end PySailing.Props
