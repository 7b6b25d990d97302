import Verif.Lemmas.Results

/-!
# Lemmas: girths and the sheet `Components`
-/

namespace PySailing

open PySailing.Spec

theorem foldl_max_greatest (xs : List ℝ) (x : ℝ) : IsGreatest {y | y ∈ x :: xs} (xs.foldl max x) := by
  induction xs generalizing x with
  | nil => exact ⟨by simp, fun y hy => by simp at hy; simp [hy]⟩
  | cons a xs ih =>
    obtain ⟨h1, h2⟩ := ih (max x a)
    rw [List.foldl_cons]
    refine ⟨?_, fun y hy => ?_⟩
    · rcases List.mem_cons.1 h1 with h | h
      · rcases max_choice x a with e | e
        · exact List.mem_cons.2 (.inl (h.trans e))
        · exact List.mem_cons_of_mem _ (List.mem_cons.2 (.inl (h.trans e)))
      · exact List.mem_cons_of_mem _ (List.mem_cons_of_mem _ h)
    · have hm := h2 (a := max x a) (by simp)
      rcases List.mem_cons.1 hy with rfl | hy
      · exact (le_max_left _ _).trans hm
      · rcases List.mem_cons.1 hy with rfl | hy
        · exact (le_max_right _ _).trans hm
        · exact h2 (List.mem_cons_of_mem _ hy)

theorem pyMax_ok {xs : List ℝ} {m : ℝ} (h : IsGreatest {y | y ∈ xs} m) : pyMax xs = .ok m := by
  cases xs with
  | nil => have := h.1; simp at this
  | cons x xs => rw [pyMax, (foldl_max_greatest xs x).unique h]

theorem cpToGirths_ok {cps : List V3} {tack : V3} {top : ℝ}
    (h : IsGreatest {z | ∃ p ∈ cps, z = p.z} top) (hne : top ≠ tack.z) :
    cpToGirths cps tack = .ok (cps.map fun p => (p.z - tack.z) / (top - tack.z)) := by
  have h' : IsGreatest {y | y ∈ cps.map V3.z} top := by
    convert h using 3
    simp [eq_comm]
  unfold cpToGirths
  rw [pyMax_ok h']
  exact if_neg (sub_ne_zero.2 hne)

theorem everySecond_pairs {ι α : Type} (l : List ι) (A B : ι → α) :
    everySecond (l.flatMap fun i => [A i, B i]) = l.map A := by
  induction l with
  | nil => rfl
  | cons i l ih => simp [List.flatMap_cons, everySecond, ih]

theorem flatten_pairs {ι α : Type} (l : List ι) (A B : ι → List α) :
    (l.map fun i => A i ++ B i).flatten = (l.flatMap fun i => [A i, B i]).flatten := by
  induction l with
  | nil => rfl
  | cons i l ih => simp [List.flatMap_cons, ih]

theorem length_pairs {ι α : Type} (l : List ι) (A B : ι → α) :
    (l.flatMap fun i => [A i, B i]).length = 2 * l.length := by
  induction l with
  | nil => rfl
  | cons i l ih => simp [List.flatMap_cons, ih]; ring

theorem chunk_range (xs : List V3) {d m : ℕ} (h : d + m ≤ xs.length) :
    (xs.drop d).take m = (List.range m).map fun k => row xs (d + k) := by
  apply List.ext_getElem?
  intro k
  by_cases hk : k < m
  · rw [List.getElem?_take_of_lt hk, List.getElem?_drop, List.getElem?_map,
      List.getElem?_range hk, List.getElem?_eq_getElem (by omega)]
    simp [row, List.getD_eq_getElem?_getD, List.getElem?_eq_getElem (show d + k < xs.length by omega)]
  · rw [List.getElem?_eq_none (by rw [List.length_take, List.length_drop]; omega),
      List.getElem?_eq_none (by simp; omega)]

/-- The upright point number `k`. -/
noncomputable def upright (c : Csys) (cps : List V3) (k : ℕ) : V3 :=
  c.reverseRotationsWithMirror (row cps k)

/-- The upright points of sail `b` (of `m` panels), above the water. -/
noncomputable def uprightAbove (c : Csys) (cps : List V3) (m b : ℕ) : List V3 :=
  (List.range m).map fun k => upright c cps (b * m + k)

/-- The upright points of the mirror image of sail `b` of `n`. -/
noncomputable def uprightUnder (c : Csys) (cps : List V3) (n m b : ℕ) : List V3 :=
  (List.range m).map fun k => upright c cps ((b + n) * m + k)

/-- Girths for given tack and highest point. -/
noncomputable def girthOf (sails : List SailGeom) (top : ℕ → ℝ) (b : ℕ) (p : V3) : ℝ :=
  (p.z - (sails.getD b ⟨[], [], [], [], [], [], 0, 0, "", 0⟩).tackMounting.z) /
    (top b - (sails.getD b ⟨[], [], [], [], [], [], 0, 0, "", 0⟩).tackMounting.z)

theorem cpGirthsAll_ok {sails : List SailGeom} {m : ℕ} (hn : sails ≠ []) (c : Csys) {cps : List V3}
    (hl : cps.length = 2 * (sails.length * m)) {top : ℕ → ℝ}
    (htop : ∀ b (_ : b < sails.length), IsGreatest {z | ∃ p ∈ uprightAbove c cps m b ++
      uprightUnder c cps sails.length m b, z = p.z} (top b))
    (hne : ∀ b (hb : b < sails.length), top b ≠ sails[b].tackMounting.z) :
    cpGirthsAll sails c cps = .ok
      (((List.range sails.length).flatMap fun b =>
          [(uprightAbove c cps m b).map (girthOf sails top b),
            (uprightUnder c cps sails.length m b).map (girthOf sails top b)]).flatten,
       ((List.range sails.length).flatMap fun b =>
          [uprightAbove c cps m b, uprightUnder c cps sails.length m b]).flatten) := by
  have hpos : 0 < sails.length := List.length_pos_iff.2 hn
  obtain ⟨chunks, hc, hcl, hcc⟩ := arraySplit_chunks (xs := cps) (g := 2 * sails.length) (n := m)
    (by omega) (by rw [hl]; ring)
  unfold cpGirthsAll
  simp only [hc]
  have key : (List.range sails.length).mapM (fun i => (do
      let a ← idx chunks i
      let b ← idx chunks (i + sails.length)
      let s ← idx sails i
      let straight := cpStraightYacht (a ++ b) c
      let g ← cpToGirths straight s.tackMounting
      (Except.ok (g, straight) : Py (List ℝ × List V3)))) =
      .ok ((List.range sails.length).map fun b =>
        ((uprightAbove c cps m b).map (girthOf sails top b) ++
          (uprightUnder c cps sails.length m b).map (girthOf sails top b),
        uprightAbove c cps m b ++ uprightUnder c cps sails.length m b)) := by
    apply mapM_ok
    intro b hb
    have hb' : b < sails.length := List.mem_range.1 hb
    have e1 : idx chunks b = .ok ((cps.drop (b * m)).take m) := by
      unfold idx; rw [hcc b (by omega)]
    have e2 : idx chunks (b + sails.length) = .ok ((cps.drop ((b + sails.length) * m)).take m) := by
      unfold idx; rw [hcc _ (by omega)]
    have e3 : idx sails b = .ok sails[b] := by
      unfold idx; rw [List.getElem?_eq_getElem hb']
    rw [e1, e2, e3]
    have l1 : (b + 1) * m ≤ sails.length * m := Nat.mul_le_mul_right _ hb'
    have l2 : (b + sails.length + 1) * m ≤ (2 * sails.length) * m := Nat.mul_le_mul_right _ (by omega)
    have r1 : (b + 1) * m = b * m + m := by ring
    have r2 : (b + sails.length + 1) * m = (b + sails.length) * m + m := by ring
    have r3 : (2 * sails.length) * m = 2 * (sails.length * m) := by ring
    have e4 : cpStraightYacht ((cps.drop (b * m)).take m ++
        (cps.drop ((b + sails.length) * m)).take m) c =
        uprightAbove c cps m b ++ uprightUnder c cps sails.length m b := by
      rw [chunk_range _ (by omega), chunk_range _ (by omega)]
      unfold cpStraightYacht
      rw [List.map_append, List.map_map, List.map_map]
      rfl
    simp only [bind, Except.bind, e4]
    rw [cpToGirths_ok (htop b hb') (hne b hb')]
    simp only [List.map_append]
    congr 2
    have e5 : sails.getD b ⟨[], [], [], [], [], [], 0, 0, "", 0⟩ = sails[b] := by
      rw [List.getD_eq_getElem?_getD, List.getElem?_eq_getElem hb']; rfl
    have e6 : girthOf sails top b = fun p : V3 => (p.z - sails[b].tackMounting.z) /
        (top b - sails[b].tackMounting.z) := by
      funext p
      unfold girthOf
      rw [e5]
    rw [e6]
  simp only [bind, Except.bind] at key ⊢
  rw [key]
  simp only [List.map_map]
  congr 2
  · exact flatten_pairs _ _ _
  · exact flatten_pairs _ _ _

theorem concatFrames_eq {ts : List Frame} {N : ℕ} (h : ∀ c ∈ ts.flatten, c.2.length = N) :
    concatFrames ts = ts.flatten := by
  unfold concatFrames
  obtain ⟨cols, hc⟩ : ∃ cols, cols = ts.flatten := ⟨_, rfl⟩
  simp only [← hc]
  rw [← hc] at h
  have hfold : ∀ (l : List (String × List Cell)) (a : ℕ), a ≤ N → (∀ c ∈ l, c.2.length = N) →
      (l.map fun c => c.2.length).foldl max a ≤ N := by
    intro l
    induction l with
    | nil => intro a ha _; exact ha
    | cons c l ih =>
      intro a ha hl
      rw [List.map_cons, List.foldl_cons]
      exact ih _ (max_le ha (hl c (by simp)).le) fun c hc => hl c (List.mem_cons_of_mem _ hc)
  have hle := hfold cols 0 (Nat.zero_le _) h
  conv_rhs => rw [← List.map_id cols]
  refine List.map_congr_left fun c hcc => ?_
  rw [h c hcc, Nat.sub_eq_zero_of_le hle]
  simp

theorem cell_of_mem {t : Frame} (hnd : (t.map Prod.fst).Nodup) {name : String} {l : List Cell}
    (h : (name, l) ∈ t) (q : ℕ) : t.cell name q = l[q]? := by
  induction t with
  | nil => cases h
  | cons c t ih =>
    unfold Frame.cell
    rw [List.find?_cons]
    rw [List.map_cons, List.nodup_cons] at hnd
    rcases List.mem_cons.1 h with e | e
    · subst e
      simp
    · have : c.1 ≠ name := fun e' => hnd.1 (by rw [e']; exact List.mem_map_of_mem (f := Prod.fst) e)
      simp only [this, decide_false]
      exact ih hnd.2 e

theorem cell_of_forall₂ {t : Frame} {q : ℕ} {e : List (String × Cell)}
    (h : List.Forall₂ (fun c x => c.1 = x.1 ∧ c.2[q]? = some x.2) t e)
    (hnd : (t.map Prod.fst).Nodup) : ∀ x ∈ e, t.cell x.1 q = some x.2 := by
  intro x hx
  have : ∀ {t : Frame} {e : List (String × Cell)},
      List.Forall₂ (fun c x => c.1 = x.1 ∧ c.2[q]? = some x.2) t e → x ∈ e →
      ∃ c ∈ t, c.1 = x.1 ∧ c.2[q]? = some x.2 := by
    intro t e h
    induction h with
    | nil => intro hx; cases hx
    | cons h1 _ ih =>
      intro hx
      rcases List.mem_cons.1 hx with rfl | hx
      · exact ⟨_, List.mem_cons_self, h1⟩
      · obtain ⟨c, hc, h'⟩ := ih hx
        exact ⟨c, List.mem_cons_of_mem _ hc, h'⟩
  obtain ⟨c, hc, h1, h2⟩ := this h hx
  rw [← h1, cell_of_mem hnd (l := c.2) hc, h2]

theorem inviscidFlow_fields {sails : List SailGeom} {csys : Csys} {a : FlowArrays} {res : FlowResults}
    (h : inviscidFlow sails csys a = .ok res) :
    res.gamma = a.gamma ∧ res.pressure = a.pressure ∧ res.vInd = a.vIndCp ∧
    res.vIndLength = a.vIndCp.map V3.norm ∧ res.vFs = a.vFsCp ∧ res.vFsLength = a.vFsCp.map V3.norm ∧
    res.awa = a.vFsCp.map (fun v => arctanRatio v.y v.x) ∧ res.csys = csys ∧ res.force = a.force ∧
    res.forceCl = a.force.map csys.leeway.mulVec := by
  unfold inviscidFlow at h
  simp only [bind, Except.bind] at h
  split at h
  · cases h
  split at h
  · cases h
  split at h
  · cases h
  split at h
  · cases h
  cases h
  exact ⟨rfl, rfl, rfl, rfl, rfl, rfl, rfl, rfl, rfl, rfl⟩

theorem sailNames_get {sails : List SailGeom} {m b k : ℕ} (hb : b < sails.length) (hk : k < m) :
    ((sails.map fun s => List.replicate m s.name).flatten)[b * m + k]? = some sails[b].name := by
  rw [flatten_getElem? (n := m) _ (by
    intro l hl
    obtain ⟨s, -, rfl⟩ := List.mem_map.1 hl
    simp) hk]
  simp [List.getElem?_eq_getElem hb, hk]

theorem firstHalf_length {t : Frame} {N : ℕ} (h : ∀ c ∈ t, c.2.length = 2 * N) :
    ∀ c ∈ t.firstHalf, c.2.length = N := by
  intro c hc
  obtain ⟨c', hc', rfl⟩ := List.mem_map.1 hc
  have := h c' hc'
  simp only [List.length_take]
  omega

/-- Row `q` of the table `t` consists of the cells `e`. -/
def RowIs (q : ℕ) (t : Frame) (e : List (String × Cell)) : Prop :=
  List.Forall₂ (fun (c : String × List Cell) (x : String × Cell) => c.1 = x.1 ∧ c.2[q]? = some x.2) t e

theorem RowIs.firstHalf {t : Frame} {N q : ℕ} (hq : q < N) {e : List (String × Cell)}
    (h : ∀ c ∈ t, c.2.length = 2 * N) (hr : RowIs q t e) : RowIs q t.firstHalf e := by
  unfold RowIs at hr ⊢
  induction hr with
  | nil => exact .nil
  | cons h1 _ ih =>
    refine .cons ⟨h1.1, ?_⟩ (ih fun c hc => h c (List.mem_cons_of_mem _ hc))
    rw [← h1.2]
    have := h _ List.mem_cons_self
    exact List.getElem?_take_of_lt (by omega)

theorem RowIs.append {q : ℕ} {t t' : Frame} {e e' : List (String × Cell)} (h : RowIs q t e)
    (h' : RowIs q t' e') : RowIs q (t ++ t') (e ++ e') := by
  unfold RowIs at *
  induction h with
  | nil => exact h'
  | cons h1 _ ih => exact .cons h1 ih

theorem RowIs.names {q : ℕ} {t : Frame} {e : List (String × Cell)} (h : RowIs q t e) :
    t.map Prod.fst = e.map Prod.fst := by
  unfold RowIs at h
  induction h with
  | nil => rfl
  | cons h1 _ ih => rw [List.map_cons, List.map_cons, h1.1, ih]

theorem RowIs.single {q : ℕ} {name : String} {l : List Cell} {x : Cell} (h : l[q]? = some x) :
    RowIs q [(name, l)] [(name, x)] := .cons ⟨rfl, h⟩ .nil

theorem RowIs.vec {q : ℕ} {key : String} {l : List V3} (h : q < l.length) :
    RowIs q (vecColumns key l) [(key ++ ".x", .num (row l q).x), (key ++ ".y", .num (row l q).y),
      (key ++ ".z", .num (row l q).z)] := by
  have : row l q = l[q] := by
    unfold row; rw [List.getD_eq_getElem?_getD, List.getElem?_eq_getElem h]; rfl
  refine .cons ⟨rfl, ?_⟩ (.cons ⟨rfl, ?_⟩ (.cons ⟨rfl, ?_⟩ .nil)) <;>
    simp [List.getElem?_map, List.getElem?_eq_getElem h, this]

theorem map_get {α : Type} {f : α → Cell} {l : List α} {q : ℕ} {a : α} (h : l[q]? = some a) :
    (l.map f)[q]? = some (f a) := by
  rw [List.getElem?_map, h]; rfl

theorem row_get {l : List V3} {q : ℕ} (h : q < l.length) : l[q]? = some (row l q) := by
  unfold row; rw [List.getD_eq_getElem?_getD, List.getElem?_eq_getElem h]; rfl

theorem getD_get {l : List ℝ} {q : ℕ} (h : q < l.length) : l[q]? = some (l.getD q 0) := by
  rw [List.getD_eq_getElem?_getD, List.getElem?_eq_getElem h]; rfl

end PySailing
