import Verif.Spec.NearRun
import Verif.Spec.Results
import Verif.Lemmas.NearSail
import Verif.Lemmas.Results
import Mathlib.Analysis.SpecialFunctions.Complex.Arg
import Mathlib.Topology.Order.Lattice

/-!
# Cells, dictionaries and tables that tend to given ones
-/

namespace PySailing

open Spec Filter Topology

variable {T : Type} {l : Filter T}

theorem reverseLeeway_conv {c : T → Csys} {c0 : Csys} (h : Tendsto (fun t => (c t).leewayDeg) l (𝓝 c0.leewayDeg)) {p : T → V3} {p0 : V3}
    (hp : Conv l p p0) : Conv l (fun t => (c t).reverseLeeway.mulVec (p t)) (c0.reverseLeeway.mulVec p0) := by
  have e : ∀ (c : Csys) (p : V3), c.reverseLeeway.mulVec p = (⟨c.heelDeg, -c.leewayDeg, c.vRef⟩ : Csys).leeway.mulVec p := fun _ _ => rfl
  simp only [e]
  exact leeway_conv (c := fun t => ⟨(c t).heelDeg, -(c t).leewayDeg, (c t).vRef⟩) (c0 := ⟨c0.heelDeg, -c0.leewayDeg, c0.vRef⟩) h.neg hp

theorem reverseLeeway_z (c : Csys) (p : V3) : (c.reverseLeeway.mulVec p).z = p.z := by
  have e : c.reverseLeeway.mulVec p = (⟨c.heelDeg, -c.leewayDeg, c.vRef⟩ : Csys).leeway.mulVec p := rfl
  rw [e, Csys.leeway_mulVec]

theorem reverse_conv {c : T → Csys} {c0 : Csys} (h : Tendsto (fun t => (c t).leewayDeg) l (𝓝 c0.leewayDeg))
    (hh : Tendsto (fun t => (c t).heelDeg) l (𝓝 c0.heelDeg)) {p : T → V3} {p0 : V3} (hp : Conv l p p0) (hz : p0.z ≠ 0) :
    Conv l (fun t => (c t).reverseRotationsWithMirror (p t)) (c0.reverseRotationsWithMirror p0) := by
  have hq := reverseLeeway_conv h hp
  unfold Csys.reverseRotationsWithMirror
  simp only [reverseLeeway_z]
  rcases lt_or_gt_of_ne hz with h0 | h0
  · rw [if_neg (not_lt.2 h0.le)]
    refine (heeling_conv hh hq).congr' ((hp.z.eventually_lt_const h0).mono fun t ht => ?_)
    rw [if_neg (not_lt.2 ht.le)]
  · rw [if_pos h0]
    refine (reverseHeeling_conv hh hq).congr' ((hp.z.eventually_const_lt h0).mono fun t ht => ?_)
    rw [if_pos ht]

theorem arm_conv {v p : T → V3} {v0 p0 : V3} (hv : Conv l v v0) (hp : Conv l p p0) (hz : p0.z ≠ 0) :
    Conv l (fun t => armFrom (v t) (p t)) (armFrom v0 p0) := by
  unfold armFrom
  rcases lt_or_gt_of_ne hz with h0 | h0
  · rw [if_neg (not_lt.2 h0.le)]
    refine (hp.sub (mirror_conv hv)).congr' ((hp.z.eventually_lt_const h0).mono fun t ht => ?_)
    rw [if_neg (not_lt.2 ht.le)]
  · rw [if_pos h0]
    refine (hp.sub hv).congr' ((hp.z.eventually_const_lt h0).mono fun t ht => ?_)
    rw [if_pos ht]

theorem lengthToXyz_conv {w : T → WindObj} {w0 : WindObj} (hw : NearWind l w w0) {s : T → ℝ} {s0 : ℝ} (hs : Tendsto s l (𝓝 s0)) :
    Conv l (fun t => (w t).lengthToXyz (s t)) (w0.lengthToXyz s0) := by
  have hang : Tendsto (fun t => (w t).alpha) l (𝓝 w0.alpha) := by
    unfold WindObj.alpha
    exact deg2rad_tendsto hw.alpha
  exact ⟨hs.mul ((Real.continuous_cos.tendsto _).comp hang), hs.mul ((Real.continuous_sin.tendsto _).comp hang), tendsto_const_nhds⟩

theorem appInfs_conv {w : T → WindObj} {w0 : WindObj} (hw : NearWind l w w0) {s : T → V3} {s0 : V3} (hs : Conv l s s0) :
    Conv l (fun t => (w t).appInfs (s t)) (w0.appInfs s0) := ⟨hs.x.add hw.yacht, hs.y, hs.z⟩

theorem rad2deg_tendsto {f : T → ℝ} {a : ℝ} (h : Tendsto f l (𝓝 a)) : Tendsto (fun t => rad2deg (f t)) l (𝓝 (rad2deg a)) := by
  unfold rad2deg
  exact (h.mul_const _).div_const _

theorem arctan2_tendsto {y x : T → ℝ} {y0 x0 : ℝ} (hy : Tendsto y l (𝓝 y0)) (hx : Tendsto x l (𝓝 x0)) (h : ¬ (y0 = 0 ∧ x0 ≤ 0)) :
    Tendsto (fun t => arctan2 (y t) (x t)) l (𝓝 (arctan2 y0 x0)) := by
  unfold arctan2
  have hs : (⟨x0, y0⟩ : ℂ) ∈ Complex.slitPlane := by
    rw [Complex.mem_slitPlane_iff]
    by_cases hy0 : y0 = 0
    · exact .inl (lt_of_not_ge fun hx => h ⟨hy0, hx⟩)
    · exact .inr hy0
  have hc : Tendsto (fun t => (⟨x t, y t⟩ : ℂ)) l (𝓝 ⟨x0, y0⟩) := by
    have : ∀ a b : ℝ, (⟨a, b⟩ : ℂ) = a + b * Complex.I := fun a b => by
      apply Complex.ext <;> simp
    simp only [this]
    exact ((Complex.continuous_ofReal.tendsto _).comp hx).add (((Complex.continuous_ofReal.tendsto _).comp hy).mul_const _)
  exact (Complex.continuousAt_arg hs).tendsto.comp hc

/-! ## Dictionaries -/

/-- Dictionaries tend to a dictionary. -/
def ConvDict (l : Filter T) (d : T → PyDict) (d0 : PyDict) : Prop := ∀ key, NearNumber l (fun t => d t key) (d0 key)

theorem nearNumber_const (x : Option ℝ) : NearNumber l (fun _ => x) x := by
  cases x with
  | none => exact Eventually.of_forall fun _ => rfl
  | some a => exact ⟨fun _ => a, Eventually.of_forall fun _ => rfl, tendsto_const_nhds⟩

theorem nearNumber_of {f : T → ℝ} {a : ℝ} (h : Tendsto f l (𝓝 a)) : NearNumber l (fun t => some (f t)) (some a) :=
  ⟨f, Eventually.of_forall fun _ => rfl, h⟩

theorem NearNumber.congr' {x y : T → Option ℝ} {a : Option ℝ} (h : NearNumber l x a) (e : ∀ᶠ t in l, x t = y t) : NearNumber l y a := by
  cases a with
  | none =>
    filter_upwards [h, e] with t t1 t2
    rw [← t2]; exact t1
  | some a =>
    obtain ⟨f, h1, h2⟩ := h
    refine ⟨f, ?_, h2⟩
    filter_upwards [h1, e] with t t1 t2
    rw [← t2]; exact t1

theorem ConvDict.empty : ConvDict l (fun _ => PyDict.empty) PyDict.empty := fun _ => nearNumber_const _

theorem ConvDict.set {d : T → PyDict} {d0 : PyDict} (h : ConvDict l d d0) (key : String) {v : T → ℝ} {v0 : ℝ} (hv : Tendsto v l (𝓝 v0)) :
    ConvDict l (fun t => (d t).set key (v t)) (d0.set key v0) := by
  intro k
  unfold PyDict.set
  simp only [Function.update_apply]
  split_ifs
  · exact nearNumber_of hv
  · exact h k

theorem ConvDict.setVec {d : T → PyDict} {d0 : PyDict} (h : ConvDict l d d0) (key : String) {v : T → V3} {v0 : V3} (hv : Conv l v v0) :
    ConvDict l (fun t => (d t).setVec key (v t)) (d0.setVec key v0) :=
  ((h.set _ hv.x).set _ hv.y).set _ hv.z

theorem ConvDict.setMomentCow {d : T → PyDict} {d0 : PyDict} (h : ConvDict l d d0) (key : String) {v : T → V3} {v0 : V3} (hv : Conv l v v0) :
    ConvDict l (fun t => (d t).setMomentCow key (v t)) (d0.setMomentCow key v0) :=
  (((h.set _ hv.x).set _ hv.y).set _ hv.z).set _ hv.z.neg

theorem ConvDict.update {d e : T → PyDict} {d0 e0 : PyDict} (h : ConvDict l d d0) (h' : ConvDict l e e0) :
    ConvDict l (fun t => (d t).update (e t)) (d0.update e0) := by
  intro k
  have hk := h' k
  unfold PyDict.update
  cases he : e0 k with
  | none =>
    rw [he] at hk
    rw [Option.none_or]
    refine NearNumber.congr' (h k) (Eventually.mono hk fun t ht => ?_)
    beta_reduce at ht ⊢
    rw [ht, Option.none_or]
  | some a =>
    rw [he] at hk
    obtain ⟨f, h1, h2⟩ := hk
    exact ⟨f, h1.mono fun t ht => by beta_reduce at ht ⊢; rw [ht]; rfl, h2⟩

/-! ## Cells -/

theorem NearCell.congr' {x y : T → Option Cell} {a : Option Cell} (h : NearCell l x a) (e : ∀ᶠ t in l, x t = y t) : NearCell l y a := by
  have key : ∀ c : Option Cell, (∀ᶠ t in l, x t = c) → ∀ᶠ t in l, y t = c := fun c h => by
    filter_upwards [h, e] with t t1 t2
    rw [← t2]; exact t1
  match a with
  | none => exact key _ h
  | some .nan => exact key _ h
  | some (.text s) => exact key _ h
  | some (.num a) =>
    obtain ⟨f, h1, h2⟩ := h
    refine ⟨f, ?_, h2⟩
    filter_upwards [h1, e] with t t1 t2
    rw [← t2]; exact t1

theorem nearCell_num {f : T → ℝ} {a : ℝ} (h : Tendsto f l (𝓝 a)) : NearCell l (fun t => some (.num (f t))) (some (.num a)) :=
  ⟨f, Eventually.of_forall fun _ => rfl, h⟩

theorem nearCell_const {x : T → Option Cell} {a : Option Cell} (h : ∀ᶠ t in l, x t = a) : NearCell l x a := by
  match a with
  | none => exact h
  | some .nan => exact h
  | some (.text s) => exact h
  | some (.num a) => exact ⟨fun _ => a, h, tendsto_const_nhds⟩

theorem nearCell_ratio {y x : T → ℝ} {y0 x0 : ℝ} (hy : Tendsto y l (𝓝 y0)) (hx : Tendsto x l (𝓝 x0)) (h : x0 ≠ 0)
    {g : T → ℝ → ℝ} {g0 : ℝ → ℝ} (hg : ∀ {f : T → ℝ} {a : ℝ}, Tendsto f l (𝓝 a) → Tendsto (fun t => g t (f t)) l (𝓝 (g0 a))) :
    NearCell l (fun t => some (.ofPy ((arctanRatio (y t) (x t)).map (g t)))) (some (.ofPy ((arctanRatio y0 x0).map g0))) := by
  have e : ∀ (y x : ℝ) (g : ℝ → ℝ), x ≠ 0 → Cell.ofPy ((arctanRatio y x).map g) = .num (g (Real.arctan (y / x))) := fun y x g hx => by
    unfold arctanRatio
    rw [if_neg hx]; rfl
  rw [e _ _ _ h]
  refine NearCell.congr' (nearCell_num (hg ((Real.continuous_arctan.tendsto _).comp (hy.div hx h)))) ?_
  filter_upwards [hx.eventually_ne h] with t ht
  rw [e _ _ _ ht]; rfl

/-- Rows of a table, as lists of named cells with the same names, tend to a row; only the columns with `ok` are claimed. -/
inductive ConvCells (l : Filter T) (ok : String → Prop) : (T → List (String × Cell)) → List (String × Cell) → Prop
  | nil : ConvCells l ok (fun _ => []) []
  | cons {n : String} {x : T → Cell} {c : Cell} {F : T → List (String × Cell)} {F0 : List (String × Cell)}
      (h : ok n → NearCell l (fun t => some (x t)) (some c)) (hF : ConvCells l ok F F0) :
      ConvCells l ok (fun t => (n, x t) :: F t) ((n, c) :: F0)

namespace ConvCells

variable {ok : String → Prop}

theorem append {F G : T → List (String × Cell)} {F0 G0 : List (String × Cell)} (h : ConvCells l ok F F0) (h' : ConvCells l ok G G0) :
    ConvCells l ok (fun t => F t ++ G t) (F0 ++ G0) := by
  induction h with
  | nil => exact h'
  | cons h _ ih => exact .cons h ih

theorem names {F : T → List (String × Cell)} {F0 : List (String × Cell)} (h : ConvCells l ok F F0) (t : T) :
    (F t).map Prod.fst = F0.map Prod.fst := by
  induction h with
  | nil => rfl
  | cons h _ ih => simp only [List.map_cons, ih]

theorem mem {F : T → List (String × Cell)} {F0 : List (String × Cell)} (h : ConvCells l ok F F0) {n : String} {c : Cell} (hm : (n, c) ∈ F0)
    (ho : ok n) : ∃ x : T → Cell, (∀ t, (n, x t) ∈ F t) ∧ NearCell l (fun t => some (x t)) (some c) := by
  induction h with
  | nil => simp at hm
  | cons h _ ih =>
    rw [List.mem_cons] at hm
    rcases hm with hm | hm
    · injection hm with e1 e2
      subst e1; subst e2
      exact ⟨_, fun t => List.mem_cons_self, h ho⟩
    · obtain ⟨x, h1, h2⟩ := ih hm
      exact ⟨x, fun t => List.mem_cons_of_mem _ (h1 t), h2⟩

end ConvCells

/-- The greatest of finitely many numbers. -/
theorem isGreatest_sup' {m : ℕ} (hm : 0 < m) (f g : ℕ → ℝ) :
    IsGreatest {z | ∃ k, k < m ∧ (z = f k ∨ z = g k)} ((Finset.range m).sup' (Finset.nonempty_range_iff.2 hm.ne') fun k => max (f k) (g k)) := by
  constructor
  · obtain ⟨k, hk, e⟩ := Finset.exists_mem_eq_sup' (Finset.nonempty_range_iff.2 hm.ne') fun k => max (f k) (g k)
    refine ⟨k, Finset.mem_range.1 hk, ?_⟩
    rw [e]
    exact max_choice _ _
  · rintro z ⟨k, hk, h⟩
    refine le_trans ?_ (Finset.le_sup' (fun k => max (f k) (g k)) (Finset.mem_range.2 hk))
    rcases h with rfl | rfl
    · exact le_max_left _ _
    · exact le_max_right _ _

theorem sup'_tendsto {m : ℕ} (hm : 0 < m) {f g : T → ℕ → ℝ} {f0 g0 : ℕ → ℝ} (hf : ∀ k < m, Tendsto (fun t => f t k) l (𝓝 (f0 k)))
    (hg : ∀ k < m, Tendsto (fun t => g t k) l (𝓝 (g0 k))) :
    Tendsto (fun t => (Finset.range m).sup' (Finset.nonempty_range_iff.2 hm.ne') fun k => max (f t k) (g t k)) l
      (𝓝 ((Finset.range m).sup' (Finset.nonempty_range_iff.2 hm.ne') fun k => max (f0 k) (g0 k))) :=
  Filter.Tendsto.finset_sup'_nhds_apply _ fun k hk => (hf k (Finset.mem_range.1 hk)).max (hg k (Finset.mem_range.1 hk))

/-! ## The sheet with the wind at the reference height -/

theorem nearLookup_nil (name : String) : NearNumber l (fun _ : T => ([] : List (String × ℝ)).lookup name) (([] : List (String × ℝ)).lookup name) :=
  nearNumber_const _

theorem nearLookup_cons {name k : String} {v : T → ℝ} {v0 : ℝ} {F : T → List (String × ℝ)} {F0 : List (String × ℝ)}
    (h : name = k → Tendsto v l (𝓝 v0)) (hF : NearNumber l (fun t => (F t).lookup name) (F0.lookup name)) :
    NearNumber l (fun t => ((k, v t) :: F t).lookup name) (((k, v0) :: F0).lookup name) := by
  by_cases e : name = k
  · subst e
    simp only [List.lookup_cons_self]
    exact nearNumber_of (h rfl)
  · have e' : (name == k) = false := by simpa using e
    simp only [List.lookup_cons, e']
    exact hF

theorem windIntegral_near {w : T → WindObj} {w0 : WindObj} (hw : NearWind l w w0) {csys : T → Csys} {csys0 : Csys}
    (hl : Tendsto (fun t => (csys t).leewayDeg) l (𝓝 csys0.leewayDeg)) {ic0 : List (String × ℝ)}
    (h0 : windIntegral w0 csys0 = .ok ic0) :
    ∃ ic : T → List (String × ℝ), (∀ t, windIntegral (w t) (csys t) = .ok (ic t)) ∧
      (∀ t, (ic t).map Prod.fst = ic0.map Prod.fst) ∧
      ∀ name, ¬ ((name = "AWA_infs_at_reference_height_COG_deg" ∨ name = "AWA_infs_at_reference_height_COW_deg") ∧
        ic0.lookup "V_app_infs_at_reference_height_COG.y" = some 0 ∧
        ∃ x ≤ 0, ic0.lookup "V_app_infs_at_reference_height_COG.x" = some x) →
      NearNumber l (fun t => (ic t).lookup name) (ic0.lookup name) := by
  have hp := hw.profile
  unfold windIntegral at h0 ⊢
  simp only [hp]
  cases hprof : w0.profile with
  | flat =>
    rw [hprof] at h0
    injection h0 with h0
    exact ⟨fun _ => ic0, fun t => by rw [← h0], fun t => rfl, fun name _ => nearNumber_const _⟩
  | log a b =>
    rw [hprof] at h0
    injection h0 with h0
    exact ⟨fun _ => ic0, fun t => by rw [← h0], fun t => rfl, fun name _ => nearNumber_const _⟩
  | exp c ref wl =>
    rw [hprof] at h0
    match c, ref, wl, h0 with
    | some c, some ref, some wl, h0 =>
      simp only [Bind.bind, Except.bind] at h0 ⊢
      cases hf : expFactorFloat c ref wl ref with
      | error e => rw [hf] at h0; cases h0
      | ok f =>
        rw [hf] at h0
        injection h0 with h0
        have htws := lengthToXyz_conv hw (hw.speed.mul_const f)
        have happ := appInfs_conv hw htws
        refine ⟨_, fun t => rfl, fun t => by rw [← h0]; rfl, fun name hn => ?_⟩
        have hawa : (name = "AWA_infs_at_reference_height_COG_deg" ∨ name = "AWA_infs_at_reference_height_COW_deg") →
            Tendsto (fun t => rad2deg (arctan2 ((w t).appInfs ((w t).lengthToXyz ((w t).twsRef * f))).y
              ((w t).appInfs ((w t).lengthToXyz ((w t).twsRef * f))).x)) l
              (𝓝 (rad2deg (arctan2 (w0.appInfs (w0.lengthToXyz (w0.twsRef * f))).y (w0.appInfs (w0.lengthToXyz (w0.twsRef * f))).x))) :=
          fun hname => rad2deg_tendsto (arctan2_tendsto happ.y happ.x fun ⟨hy, hx⟩ => hn ⟨hname, by
            rw [← h0]
            simp only [List.lookup]
            simp [hy], _, hx, by
            rw [← h0]
            simp [List.lookup]⟩)
        rw [← h0]
        exact nearLookup_cons (fun _ => tendsto_const_nhds) <| nearLookup_cons (fun _ => tendsto_const_nhds) <|
          nearLookup_cons (fun _ => htws.x) <| nearLookup_cons (fun _ => htws.y) <| nearLookup_cons (fun _ => htws.z) <|
          nearLookup_cons (fun _ => htws.norm) <| nearLookup_cons (fun _ => happ.x) <| nearLookup_cons (fun _ => happ.y) <|
          nearLookup_cons (fun _ => happ.z) <| nearLookup_cons (fun _ => happ.norm) <| nearLookup_cons (fun e => hawa (.inl e)) <|
          nearLookup_cons (fun e => (hawa (.inr e)).sub hl) <| nearLookup_nil name
    | none, _, _, h0 => cases h0
    | some _, none, _, h0 => cases h0
    | some _, some _, none, h0 => cases h0

end PySailing
