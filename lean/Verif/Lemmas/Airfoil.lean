import Verif.Lemmas.ListLemmas
import Verif.Spec.Shape
import Mathlib.Analysis.Calculus.Deriv.Add
import Mathlib.Analysis.Calculus.Deriv.Pow
import Mathlib.Analysis.Calculus.Deriv.Mul
import Mathlib.Analysis.Calculus.Deriv.Inv

/-!
# Lemmas about `VlmAirfoil` and `make_airfoil_mesh`
-/

namespace PySailing

open Spec

theorem yCamber_ok {m p x : ℝ} (hp : p ≤ 0.9) (h0 : 0 ≤ x) (h1 : x ≤ 1) :
    yCamber m p x = .ok (camberCurve m p x) := by
  have hp1 : 1 - p ≠ 0 := by norm_num at hp; linarith
  unfold yCamber camberCurve
  by_cases h : x < p
  · have : p ≠ 0 := by linarith
    rw [if_pos ⟨h, h0⟩, if_pos h]
    congr 1
    field_simp
    ring
  · rw [if_neg (fun hh => h hh.1), if_pos ⟨not_lt.1 h, h1⟩, if_neg h]
    congr 1
    field_simp
    ring

/-- Value returned by `dyCamber` on the chord. -/
noncomputable def slope (m p x : ℝ) : ℝ :=
  open Classical in
  if x < p then 2 * m * (p - x) / p ^ 2 else 2 * m * (p - x) / (1 - p) ^ 2

theorem dyCamber_ok {m p x : ℝ} (h0 : 0 ≤ x) (h1 : x ≤ 1) :
    dyCamber m p x = .ok (slope m p x) := by
  unfold dyCamber slope
  by_cases h : x < p
  · rw [if_pos ⟨h, h0⟩, if_pos h]
  · rw [if_neg (fun hh => h hh.1), if_pos ⟨not_lt.1 h, h1⟩, if_neg h]

theorem zipWith_self_map {α β γ : Type} (f : α → β → γ) (g : α → β) (l : List α) :
    List.zipWith f l (l.map g) = l.map fun x => f x (g x) := by
  induction l with
  | nil => rfl
  | cons a l ih => simp [ih]

theorem vlmAirfoil_ok {m p t : ℝ} (hm : 0 ≤ m) (hm' : m ≤ 0.3) (hp : 0 ≤ p) (hp' : p ≤ 0.9)
    (ht : 0 ≤ t) (ht' : t ≤ 0.4) (n : ℕ) :
    vlmAirfoil m p t n = .ok
      { xc := linspace01 n
        yc := (linspace01 n).map (camberCurve m p)
        yt := (linspace01 n).map (camberThickness t)
        theta := (linspace01 n).map fun x => Real.arctan (slope m p x)
        xu := (linspace01 n).map fun x =>
          x - camberThickness t x * Real.sin (Real.arctan (slope m p x))
        xl := (linspace01 n).map fun x =>
          x + camberThickness t x * Real.sin (Real.arctan (slope m p x))
        yu := (linspace01 n).map fun x =>
          camberCurve m p x + camberThickness t x * Real.cos (Real.arctan (slope m p x))
        yl := (linspace01 n).map fun x =>
          camberCurve m p x - camberThickness t x * Real.cos (Real.arctan (slope m p x)) } := by
  unfold vlmAirfoil
  rw [if_neg (by simpa using ⟨hm', hm⟩), if_neg (by simpa using ⟨hp', hp⟩),
    if_neg (by simpa using ⟨ht', ht⟩)]
  have e1 : (linspace01 n).mapM (yCamber m p) = .ok ((linspace01 n).map (camberCurve m p)) :=
    mapM_ok fun x hx => yCamber_ok hp' (linspace01_mem hx).1 (linspace01_mem hx).2
  have e2 : (linspace01 n).mapM (dyCamber m p) = .ok ((linspace01 n).map (slope m p)) :=
    mapM_ok fun x hx => dyCamber_ok (linspace01_mem hx).1 (linspace01_mem hx).2
  simp only [e1, e2]
  simp [bind, Except.bind, pure, Except.pure, List.zipWith_map, Function.comp_def,
    zipWith_self_map]

theorem vlmAirfoil_exit {m p t : ℝ} (n : ℕ)
    (h : ¬ (0 ≤ m ∧ m ≤ 0.3 ∧ 0 ≤ p ∧ p ≤ 0.9 ∧ 0 ≤ t ∧ t ≤ 0.4)) :
    vlmAirfoil m p t n = .error (.sysExit 1) := by
  unfold vlmAirfoil
  by_cases h1 : m ≤ 0.3 ∧ m ≥ 0
  · by_cases h2 : p ≤ 0.9 ∧ p ≥ 0
    · by_cases h3 : t ≤ 0.4 ∧ t ≥ 0
      · exact absurd ⟨h1.2, h1.1, h2.2, h2.1, h3.2, h3.1⟩ h
      · rw [if_neg (not_not.2 h1), if_neg (not_not.2 h2), if_pos h3]
    · rw [if_neg (not_not.2 h1), if_pos h2]
  · rw [if_pos h1]

theorem hasDerivAt_parabola (m p q x : ℝ) (hq : q ≠ 0) :
    HasDerivAt (fun x => m * (1 - ((x - p) / q) ^ 2)) (2 * m * (p - x) / q ^ 2) x := by
  have h1 : HasDerivAt (fun x : ℝ => x - p) 1 x := (hasDerivAt_id x).sub_const p
  have h2 : HasDerivAt (fun x : ℝ => (x - p) / q) (1 / q) x := HasDerivAt.div_const h1 q
  have h3 : HasDerivAt (fun x : ℝ => ((x - p) / q) ^ 2) _ x := HasDerivAt.pow h2 2
  have h4 : HasDerivAt (fun x : ℝ => 1 - ((x - p) / q) ^ 2) _ x := HasDerivAt.const_sub 1 h3
  have h5 : HasDerivAt (fun x : ℝ => m * (1 - ((x - p) / q) ^ 2)) _ x := HasDerivAt.const_mul m h4
  refine HasDerivAt.congr_deriv h5 ?_
  simp
  field_simp
  ring

theorem hasDerivAt_front (m p x : ℝ) (hp : p ≠ 0) :
    HasDerivAt (fun x => m * (1 - ((x - p) / p) ^ 2)) (2 * m * (p - x) / p ^ 2) x :=
  hasDerivAt_parabola m p p x hp

theorem camberCurve_hasDerivAt {m p x : ℝ} (hp : 0 ≤ p) (hp' : p ≤ 0.9) (h0 : 0 ≤ x) :
    HasDerivAt (camberCurve m p) (slope m p x) x := by
  have hp1 : 1 - p ≠ 0 := by norm_num at hp'; linarith
  have rear : ∀ x, HasDerivAt (fun x => m * (1 - ((x - p) / (1 - p)) ^ 2))
      (2 * m * (p - x) / (1 - p) ^ 2) x := by
    exact fun x => hasDerivAt_parabola m p (1 - p) x hp1
  rcases lt_trichotomy x p with h | h | h
  · have hp0 : p ≠ 0 := by linarith
    have e : slope m p x = 2 * m * (p - x) / p ^ 2 := by unfold slope; rw [if_pos h]
    rw [e]
    refine (hasDerivAt_front m p x hp0).congr_of_eventuallyEq ?_
    filter_upwards [Iio_mem_nhds h] with y hy
    unfold camberCurve
    rw [if_pos (by exact hy)]
  · subst h
    have e : slope m x x = 0 := by unfold slope; rw [if_neg (lt_irrefl x)]; simp
    rw [e]
    have hl : HasDerivWithinAt (camberCurve m x) 0 (Set.Iic x) x := by
      by_cases hx : x = 0
      · subst hx
        refine (hasDerivWithinAt_const 0 (Set.Iic 0) m).congr ?_ ?_
        · intro y hy
          unfold camberCurve
          rcases lt_or_eq_of_le (show y ≤ 0 from hy) with h | h
          · rw [if_pos h]; simp
          · subst h; simp
        · unfold camberCurve; simp
      · have := (hasDerivAt_front m x x hx).hasDerivWithinAt (s := Set.Iic x)
        have h2 : 2 * m * (x - x) / x ^ 2 = 0 := by simp
        rw [h2] at this
        refine this.congr ?_ ?_
        · intro y hy
          unfold camberCurve
          rcases lt_or_eq_of_le (show y ≤ x from hy) with h | h
          · rw [if_pos h]
          · subst h; simp
        · unfold camberCurve; simp
    have hr : HasDerivWithinAt (camberCurve m x) 0 (Set.Ici x) x := by
      have := (rear x).hasDerivWithinAt (s := Set.Ici x)
      have h2 : 2 * m * (x - x) / (1 - x) ^ 2 = 0 := by simp
      rw [h2] at this
      refine this.congr ?_ ?_
      · intro y hy
        unfold camberCurve
        rw [if_neg (not_lt.2 hy)]
      · unfold camberCurve; rw [if_neg (lt_irrefl x)]
    have := hl.union hr
    rw [Set.Iic_union_Ici] at this
    exact this.hasDerivAt Filter.univ_mem
  · have e : slope m p x = 2 * m * (p - x) / (1 - p) ^ 2 := by
      unfold slope; rw [if_neg (not_lt.2 h.le)]
    rw [e]
    refine (rear x).congr_of_eventuallyEq ?_
    filter_upwards [Ioi_mem_nhds h] with y hy
    unfold camberCurve
    rw [if_neg (not_lt.2 (le_of_lt hy))]

theorem camberCurve_bounds {m p x : ℝ} (hm : 0 ≤ m) (hp : 0 ≤ p) (hp' : p ≤ 0.9)
    (h0 : 0 ≤ x) (h1 : x ≤ 1) : 0 ≤ camberCurve m p x ∧ camberCurve m p x ≤ m := by
  have hp1 : 0 < 1 - p := by norm_num at hp'; linarith
  have key : ∀ q : ℝ, q ^ 2 ≤ 1 → 0 ≤ m * (1 - q ^ 2) ∧ m * (1 - q ^ 2) ≤ m := by
    intro q hq
    constructor
    · exact mul_nonneg hm (by linarith)
    · nlinarith [mul_nonneg hm (sq_nonneg q)]
  unfold camberCurve
  split_ifs with h
  · have hpp : 0 < p := by linarith
    apply key
    rw [sq_le_one_iff_abs_le_one, abs_le]
    constructor
    · rw [le_div_iff₀ hpp]; linarith
    · rw [div_le_iff₀ hpp]; linarith
  · apply key
    rw [sq_le_one_iff_abs_le_one, abs_le]
    push Not at h
    constructor
    · rw [le_div_iff₀ hp1]; linarith
    · rw [div_le_iff₀ hp1]; linarith

theorem camberCurve_at_p (m p : ℝ) : camberCurve m p p = m := by
  unfold camberCurve; simp

theorem camberCurve_one {m p : ℝ} (hp' : p ≤ 0.9) : camberCurve m p 1 = 0 := by
  have hp1 : 1 - p ≠ 0 := by norm_num at hp'; linarith
  unfold camberCurve
  rw [if_neg (by norm_num at hp'; linarith), div_self hp1]; simp

theorem camberCurve_zero {m p : ℝ} (hp : 0 < p) : camberCurve m p 0 = 0 := by
  unfold camberCurve
  rw [if_pos hp]
  have := hp.ne'
  field_simp
  ring

/-! ### The mesh -/

theorem teLine_ok {l : List V3} {chords : List ℝ} (h : chords.length = l.length) :
    teLine l chords = .ok (List.zipWith (fun p c => p + ⟨c, 0, 0⟩) l chords) := by
  unfold teLine; rw [if_pos h]

theorem airfoilRow_ok {n : ℕ} {distance camber : List ℝ} {r : ℕ} (hd : r < distance.length)
    (hc : r < camber.length) (hm : 0 ≤ camber[r]) (hm' : camber[r] ≤ 0.3)
    (hp : 0 ≤ distance[r]) (hp' : distance[r] ≤ 0.9) (p1 p2 : V3) :
    airfoilRow n distance camber r p1 p2 = .ok ((linspace01 n).map fun x =>
      ⟨(p2.x - p1.x) * x + p1.x, (p2.x - p1.x) * camberCurve camber[r] distance[r] x, p1.z⟩) := by
  unfold airfoilRow
  rw [idx_ok hd, idx_ok hc]
  simp only [bind, Except.bind]
  rw [vlmAirfoil_ok hm hm' hp hp' (by norm_num) (by norm_num)]
  simp [pure, Except.pure, List.zipWith_map]

theorem take_mem {l : List ℝ} {n i : ℕ} (hi : i < n) (hl : i < l.length) : l[i] ∈ l.take n := by
  rw [List.mem_take_iff_getElem]
  exact ⟨i, by omega, rfl⟩

theorem makeAirfoilMesh_ok {ns : ℕ} {chords distance camber : List ℝ} (nc : ℕ) (a b : V3)
    (h : ValidSail ns chords distance camber) :
    ∃ mesh, makeAirfoilMesh a b nc ns chords distance camber = .ok mesh ∧
      mesh.n0 = ns + 1 ∧ mesh.n1 = nc + 1 ∧
      ∀ r k, r ≤ ns → k ≤ nc → ∃ le, (discreteSegment a b ns)[r]? = some le ∧
        mesh.at' r k = ⟨chords.getD r 0 * ((k : ℝ) / nc) + le.x,
          chords.getD r 0 * camberCurve (camber.getD r 0) (distance.getD r 0) ((k : ℝ) / nc),
          le.z⟩ := by
  have hlen := discreteSegment_length a b ns
  have hte := teLine_ok (l := discreteSegment a b ns) (chords := chords)
    (by rw [hlen, h.chords_len])
  set L := discreteSegment a b ns with hL
  set T := List.zipWith (fun (p : V3) (c : ℝ) => p + ⟨c, 0, 0⟩) L chords with hT
  have hTlen : T.length = ns + 1 := by simp [hT, hlen, h.chords_len]
  set f : (V3 × V3) × ℕ → List V3 := fun q => (linspace01 (nc + 1)).map fun x =>
      ⟨(q.1.2.x - q.1.1.x) * x + q.1.1.x,
        (q.1.2.x - q.1.1.x) * camberCurve (camber.getD q.2 0) (distance.getD q.2 0) x, q.1.1.z⟩
    with hf
  have hrows : ((L.zip T).zipIdx).mapM (fun q => airfoilRow (nc + 1) distance camber q.2 q.1.1 q.1.2)
      = .ok (((L.zip T).zipIdx).map f) := by
    apply mapM_ok
    rintro ⟨⟨p1, p2⟩, r⟩ hq
    have hr : r < ns + 1 := by
      have := List.snd_lt_of_mem_zipIdx hq
      simpa [hlen, hTlen] using this
    have hd : r < distance.length := lt_of_lt_of_le hr h.distance_len
    have hc : r < camber.length := lt_of_lt_of_le hr h.camber_len
    have h1 := h.camber_range _ (take_mem hr hc)
    have h2 := h.distance_range _ (take_mem hr hd)
    simp only
    rw [airfoilRow_ok hd hc h1.1 h1.2 h2.1 h2.2]
    simp [hf, List.getD_eq_getElem?_getD, hd, hc]
  refine ⟨NdMesh.ofRows (nc + 1) (((L.zip T).zipIdx).map f), ?_, ?_, rfl, ?_⟩
  · unfold makeAirfoilMesh
    simp only [← hL, hte, bind, Except.bind, hrows, pure, Except.pure]
  · simp [NdMesh.ofRows, hlen, hTlen]
  · intro r k hr hk
    have hrL : r < L.length := by omega
    have hrC : r < chords.length := by have := h.chords_len; omega
    refine ⟨L[r], by simp [hrL], ?_⟩
    have hzip : (L.zip T)[r]? = some (L[r], L[r] + ⟨chords[r], 0, 0⟩) := by
      rw [List.getElem?_eq_getElem (by simp [hlen, hTlen]; omega)]
      simp [hT]
    have hrow : (((L.zip T).zipIdx).map f)[r]? = some (f ((L[r], L[r] + ⟨chords[r], 0, 0⟩), r)) := by
      rw [List.getElem?_map, List.getElem?_zipIdx, hzip]
      simp
    simp only [NdMesh.ofRows, List.getD_eq_getElem?_getD, hrow, Option.getD_some]
    simp only [hf, List.getElem?_map, linspace01_getElem? (Nat.lt_succ_of_le hk), Option.map_some,
      Option.getD_some, List.getElem?_eq_getElem hrC]
    ext <;> simp [List.getD_eq_getElem?_getD]

end PySailing
