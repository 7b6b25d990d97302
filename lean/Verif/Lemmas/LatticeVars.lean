import Verif.Spec.Lattice
import Verif.Lemmas.ListLemmas

/-!
# Lemmas about `calculate_vlm_variables`
-/

namespace PySailing

section lists

variable {α β : Type}

theorem chunksOf_map (f : α → β) (xs : List α) (ns : List ℕ) :
    chunksOf (xs.map f) ns = (chunksOf xs ns).map (List.map f) := by
  induction ns generalizing xs with
  | nil => rfl
  | cons n ns ih => simp only [chunksOf, List.map_cons, ← List.map_take, ← List.map_drop, ih]

theorem arraySplit_map (f : α → β) (xs : List α) (g : ℕ) :
    arraySplit (xs.map f) g = (arraySplit xs g).map (List.map (List.map f)) := by
  unfold arraySplit
  by_cases h : g = 0
  · simp [h, Except.map]
  · simp [h, Except.map, chunksOf_map]

theorem except_map_eq {ε : Type} (f : α → β) (x : Except ε α) :
    x.map f = match x with | .ok a => .ok (f a) | .error e => .error e := by
  cases x <;> rfl

theorem mapM_comp {γ ε : Type} (f : β → Except ε γ) (h : α → β) (l : List α) :
    (l.map h).mapM f = l.mapM fun a => f (h a) := by
  induction l with
  | nil => rfl
  | cons a l ih => simp only [List.map_cons, List.mapM_cons, ih]

theorem mapM_map_congr {γ ε : Type} (f f' : α → Except ε β) (F : β → β)
    (l : List α) (h : ∀ a ∈ l, f' a = (f a).map F) :
    l.mapM f' = (l.mapM f).map (List.map F) := by
  induction l with
  | nil => rfl
  | cons a l ih =>
    rw [List.mapM_cons, List.mapM_cons, h a List.mem_cons_self,
      ih fun b hb => h b (List.mem_cons_of_mem _ hb)]
    cases f a with
    | error e => rfl
    | ok b =>
      cases l.mapM f with
      | error e => rfl
      | ok bs => rfl

theorem chunksOf_flatten {n : ℕ} (blocks : List (List α)) (h : ∀ b ∈ blocks, b.length = n) :
    chunksOf blocks.flatten (List.replicate blocks.length n) = blocks := by
  induction blocks with
  | nil => rfl
  | cons b bs ih =>
    have hb := h b List.mem_cons_self
    rw [List.length_cons, List.replicate_succ, chunksOf, List.flatten_cons, List.take_left' hb,
      List.drop_left' hb, ih fun c hc => h c (List.mem_cons_of_mem _ hc)]

theorem length_flatten_eq {n : ℕ} (blocks : List (List α)) (h : ∀ b ∈ blocks, b.length = n) :
    blocks.flatten.length = blocks.length * n := by
  induction blocks with
  | nil => simp
  | cons b bs ih =>
    rw [List.flatten_cons, List.length_append, h b List.mem_cons_self,
      ih fun c hc => h c (List.mem_cons_of_mem _ hc), List.length_cons]
    ring

theorem arraySplit_flatten {n : ℕ} (blocks : List (List α)) (hne : blocks ≠ [])
    (h : ∀ b ∈ blocks, b.length = n) : arraySplit blocks.flatten blocks.length = .ok blocks := by
  have hl : 0 < blocks.length := List.length_pos_of_ne_nil hne
  unfold arraySplit
  rw [if_neg hl.ne', length_flatten_eq blocks h, Nat.mul_mod_right, Nat.mul_div_cancel_left _ hl]
  simp only [List.replicate_zero, List.nil_append, Nat.sub_zero, chunksOf_flatten blocks h]

theorem npSplit_flatten {n : ℕ} (blocks : List (List α)) (hne : blocks ≠ [])
    (h : ∀ b ∈ blocks, b.length = n) : npSplit blocks.flatten blocks.length = .ok blocks := by
  have hl : 0 < blocks.length := List.length_pos_of_ne_nil hne
  unfold npSplit
  rw [if_neg hl.ne', length_flatten_eq blocks h, if_pos (Nat.mul_mod_right _ _),
    Nat.mul_div_cancel_left _ hl, chunksOf_flatten blocks h]

theorem flatten_getElem? {n : ℕ} (blocks : List (List α)) (h : ∀ b ∈ blocks, b.length = n)
    {b k : ℕ} (hk : k < n) :
    blocks.flatten[b * n + k]? = (blocks[b]?).bind fun l => l[k]? := by
  induction blocks generalizing b with
  | nil => simp
  | cons c cs ih =>
    have hc := h c List.mem_cons_self
    rw [List.flatten_cons]
    rcases b with _ | b
    · rw [List.getElem?_append_left (by omega)]; simp
    · rw [List.getElem?_append_right (by rw [hc]; nlinarith), hc,
        show (b + 1) * n + k - n = b * n + k by rw [Nat.succ_mul]; omega,
        ih fun d hd => h d (List.mem_cons_of_mem _ hd)]
      simp

theorem chunksOf_length (xs : List α) (ns : List ℕ) : (chunksOf xs ns).length = ns.length := by
  induction ns generalizing xs with
  | nil => rfl
  | cons n ns ih => simp [chunksOf, ih]

theorem chunksOf_replicate (xs : List α) (g n : ℕ) (h : xs.length = g * n) :
    (chunksOf xs (List.replicate g n)).flatten = xs ∧
      ∀ b ∈ chunksOf xs (List.replicate g n), b.length = n := by
  induction g generalizing xs with
  | zero =>
    have : xs = [] := List.length_eq_zero_iff.1 (by omega)
    simp [this, chunksOf]
  | succ g ih =>
    have hs : (g + 1) * n = g * n + n := Nat.succ_mul g n
    obtain ⟨h1, h2⟩ := ih (xs.drop n) (by rw [List.length_drop]; omega)
    rw [List.replicate_succ, chunksOf]
    refine ⟨by rw [List.flatten_cons, h1, List.take_append_drop], fun b hb => ?_⟩
    rcases List.mem_cons.1 hb with rfl | hb
    · rw [List.length_take]; omega
    · exact h2 b hb

theorem arraySplit_ok {xs : List α} {g n : ℕ} {cs : List (List α)} (hx : xs.length = g * n)
    (h : arraySplit xs g = .ok cs) :
    cs.flatten = xs ∧ (∀ b ∈ cs, b.length = n) ∧ cs.length = g := by
  unfold arraySplit at h
  split_ifs at h with h0
  rw [hx, Nat.mul_mod_right, Nat.mul_div_cancel_left _ (Nat.pos_of_ne_zero h0)] at h
  simp only [List.replicate_zero, List.nil_append, Nat.sub_zero] at h
  injection h with h
  subst h
  obtain ⟨h1, h2⟩ := chunksOf_replicate xs g n hx
  exact ⟨h1, h2, by rw [chunksOf_length, List.length_replicate]⟩

theorem arraySplit_length {xs : List α} {g : ℕ} {cs : List (List α)}
    (h : arraySplit xs g = .ok cs) : cs.length = g := by
  unfold arraySplit at h
  split_ifs at h with h0
  injection h with h
  subst h
  rw [chunksOf_length, List.length_append, List.length_replicate, List.length_replicate]
  have := Nat.mod_lt xs.length (Nat.pos_of_ne_zero h0)
  omega

theorem idx_map (f : α → β) (xs : List α) (i : ℕ) : idx (xs.map f) i = (idx xs i).map f := by
  unfold idx
  rw [List.getElem?_map]
  cases xs[i]? <;> rfl

end lists

/-! ## Naturality -/

theorem vlmVarsAt_map {f : Panel → Panel} {F : PanelVars → PanelVars} {Φ : V3 → V3} {g g' : ℝ}
    (hF : ∀ q A D, panelVars g' (f q) (Φ A) (Φ D) = F (panelVars g q A D))
    (hA : ∀ q, behindA (f q) = Φ (behindA q)) (hD : ∀ q, behindD (f q) = Φ (behindD q))
    (hB : ∀ q, quarterB (f q) = Φ (quarterB q)) (hC : ∀ q, quarterC (f q) = Φ (quarterC q))
    (nc ns : ℕ) (grid : List Panel) (te : List Bool) (k : ℕ) :
    vlmVarsAt g' nc ns (grid.map f) te k = (vlmVarsAt g nc ns grid te k).map F := by
  unfold vlmVarsAt
  rw [idx_map, idx_map]
  cases idx grid k with
  | error e => rfl
  | ok q =>
    simp only [Except.map, bind, Except.bind]
    by_cases hk : nc * ns ≤ k
    · simp [hk]
    · simp only [hk, if_false]
      cases idx te k with
      | error e => rfl
      | ok t =>
        cases t
        · simp only [Bool.false_eq_true, if_false]
          cases idx grid (k + ns) with
          | error e => rfl
          | ok n => simp only [hB, hC, hF]
        · simp only [if_true, hA, hD, hF]

theorem calculateVlmVariables_map {f : Panel → Panel} {F : PanelVars → PanelVars} {Φ : V3 → V3}
    {g g' : ℝ}
    (hF : ∀ q A D, panelVars g' (f q) (Φ A) (Φ D) = F (panelVars g q A D))
    (hA : ∀ q, behindA (f q) = Φ (behindA q)) (hD : ∀ q, behindD (f q) = Φ (behindD q))
    (hB : ∀ q, quarterB (f q) = Φ (quarterB q)) (hC : ∀ q, quarterC (f q) = Φ (quarterC q))
    (hn : ∀ q, normalRaw (f q) = 0 ↔ normalRaw q = 0)
    (panels : List Panel) (te : List Bool) (nc ns : ℕ) :
    calculateVlmVariables (panels.map f) te g' nc ns =
      (calculateVlmVariables panels te g nc ns).map (List.map F) := by
  unfold calculateVlmVariables
  by_cases h0 : nc * ns = 0
  · simp [h0, Except.map]
  simp only [h0, if_false, List.length_map, arraySplit_map]
  have hex : (∃ q ∈ panels.map f, normalRaw q = 0) ↔ ∃ q ∈ panels, normalRaw q = 0 := by
    simp only [List.mem_map, exists_exists_and_eq_and, hn]
  cases arraySplit panels (panels.length / (nc * ns)) with
  | error e => rfl
  | ok chunks =>
    cases arraySplit te (panels.length / (nc * ns)) with
    | error e => rfl
    | ok teChunks =>
      simp only [Except.map, bind, Except.bind]
      have hz : (chunks.map (List.map f)).zip teChunks =
          (chunks.zip teChunks).map fun c => (c.1.map f, c.2) := by
        rw [List.zip_map_left]; rfl
      rw [hz, mapM_comp]
      have := mapM_map_congr (γ := Unit)
        (fun c : List Panel × List Bool => (List.range c.1.length).mapM (vlmVarsAt g nc ns c.1 c.2))
        (fun c : List Panel × List Bool =>
          (List.range (c.1.map f).length).mapM (vlmVarsAt g' nc ns (c.1.map f) c.2))
        (List.map F) (chunks.zip teChunks) (fun c _ => by
          rw [List.length_map]
          exact mapM_map_congr (γ := Unit) _ _ F _ fun k _ => vlmVarsAt_map hF hA hD hB hC nc ns c.1 c.2 k)
      rw [this]
      cases (chunks.zip teChunks).mapM fun c : List Panel × List Bool =>
        (List.range c.1.length).mapM (vlmVarsAt g nc ns c.1 c.2) with
      | error e => rfl
      | ok vars =>
        simp only [Except.map]
        by_cases hl : panels.length / (nc * ns) * (nc * ns) ≠ panels.length
        · rw [if_pos hl, if_pos hl]
        · rw [if_neg hl, if_neg hl]
          by_cases he : ∃ q ∈ panels, normalRaw q = 0
          · rw [if_pos he, if_pos (hex.2 he)]
          · rw [if_neg he, if_neg (mt hex.1 he)]
            simp only [List.map_flatten]

/-! ## What is returned -/

theorem vlmVarsAt_ok {g : ℝ} {nc ns : ℕ} {grid : List Panel} {te : List Bool} {k : ℕ}
    {v : PanelVars} (h : vlmVarsAt g nc ns grid te k = .ok v) :
    ∃ q A D, grid[k]? = some q ∧ v = panelVars g q A D := by
  unfold vlmVarsAt at h
  by_cases hk : k < grid.length
  · rw [idx_ok hk] at h
    simp only [bind, Except.bind] at h
    refine ⟨grid[k], ?_⟩
    split_ifs at h
    cases ht : idx te k with
    | error e => rw [ht] at h; cases h
    | ok t =>
      rw [ht] at h
      cases t
      · simp only [Bool.false_eq_true, if_false] at h
        cases hn : idx grid (k + ns) with
        | error e => rw [hn] at h; cases h
        | ok n =>
          rw [hn] at h
          injection h with h
          exact ⟨_, _, List.getElem?_eq_getElem hk, h.symm⟩
      · simp only [if_true] at h
        injection h with h
        exact ⟨_, _, List.getElem?_eq_getElem hk, h.symm⟩
  · rw [idx_error (not_lt.1 hk)] at h
    cases h

theorem calculateVlmVariables_ok {panels : List Panel} {te : List Bool} {g : ℝ} {nc ns : ℕ}
    {vars : List PanelVars} (h : calculateVlmVariables panels te g nc ns = .ok vars) :
    vars.length = panels.length ∧ (∀ q ∈ panels, normalRaw q ≠ 0) ∧
      ∀ k (hk : k < panels.length), ∃ A D, vars[k]? = some (panelVars g panels[k] A D) := by
  unfold calculateVlmVariables at h
  by_cases h0 : nc * ns = 0
  · rw [if_pos h0] at h; cases h
  rw [if_neg h0] at h
  simp only at h
  cases hc : arraySplit panels (panels.length / (nc * ns)) with
  | error e => rw [hc] at h; cases h
  | ok chunks =>
  cases ht : arraySplit te (panels.length / (nc * ns)) with
  | error e => rw [hc, ht] at h; cases h
  | ok teChunks =>
  rw [hc, ht] at h
  simp only [bind, Except.bind] at h
  cases hm : (chunks.zip teChunks).mapM fun c : List Panel × List Bool =>
      (List.range c.1.length).mapM (vlmVarsAt g nc ns c.1 c.2) with
  | error e => rw [hm] at h; cases h
  | ok vs =>
  rw [hm] at h
  simp only at h
  by_cases hl : panels.length / (nc * ns) * (nc * ns) ≠ panels.length
  · rw [if_pos hl] at h; cases h
  rw [if_neg hl] at h
  push Not at hl
  by_cases he : ∃ q ∈ panels, normalRaw q = 0
  · rw [if_pos he] at h; cases h
  rw [if_neg he] at h
  push Not at he
  injection h with h
  subst h
  obtain ⟨hf, hlen, hG⟩ := arraySplit_ok hl.symm hc
  have hG' := arraySplit_length ht
  obtain ⟨hvl, hv⟩ := mapM_ok_inv hm
  have hzl : (chunks.zip teChunks).length = chunks.length := by
    rw [List.length_zip, hG, hG', min_self]
  have hn : 0 < nc * ns := Nat.pos_of_ne_zero h0
  have hblock : ∀ b (hb : b < chunks.length), ∃ r, vs[b]? = some r ∧ r.length = nc * ns ∧
      ∀ k, (hk : k < (chunks[b]).length) → ∃ A D, r[k]? = some (panelVars g (chunks[b])[k] A D) := by
    intro b hb
    obtain ⟨r, hr, hr'⟩ := hv b (by rw [hzl]; exact hb)
    obtain ⟨h1, h2⟩ := mapM_ok_inv hr'
    simp only [List.getElem_zip, List.length_range] at h1 h2
    refine ⟨r, hr, by rw [h1]; exact hlen _ (List.getElem_mem hb), fun k hk => ?_⟩
    obtain ⟨v, hv1, hv2⟩ := h2 k (by simpa using hk)
    simp only [List.getElem_range] at hv2
    obtain ⟨q, A, D, hq, rfl⟩ := vlmVarsAt_ok hv2
    rw [List.getElem?_eq_getElem hk] at hq
    injection hq with hq
    subst hq
    exact ⟨A, D, hv1⟩
  have hvs : ∀ r ∈ vs, r.length = nc * ns := by
    intro r hr
    obtain ⟨b, hb, rfl⟩ := List.mem_iff_getElem.1 hr
    obtain ⟨r', hr', h1, -⟩ := hblock b (by rw [← hzl, ← hvl]; exact hb)
    rw [List.getElem?_eq_getElem hb] at hr'
    injection hr' with hr'
    rw [hr']; exact h1
  refine ⟨by rw [length_flatten_eq vs hvs, hvl, hzl, hG, hl], he, fun k hk => ?_⟩
  have hkk : k = k / (nc * ns) * (nc * ns) + k % (nc * ns) := by
    rw [Nat.mul_comm]; exact (Nat.div_add_mod k _).symm
  have hkm := Nat.mod_lt k hn
  have hkb : k / (nc * ns) < chunks.length := by
    rw [hG]; exact Nat.div_lt_div_of_lt_of_dvd (Dvd.intro_left _ hl) hk
  have hp : panels[k]? = (chunks[k / (nc * ns)])[k % (nc * ns)]? := by
    conv_lhs => rw [← hf, hkk]
    rw [flatten_getElem? chunks hlen hkm, List.getElem?_eq_getElem hkb]
    rfl
  obtain ⟨r, hr, h1, h2⟩ := hblock _ hkb
  have hkc : k % (nc * ns) < (chunks[k / (nc * ns)]).length := by
    rw [hlen _ (List.getElem_mem hkb)]; exact hkm
  obtain ⟨A, D, hAD⟩ := h2 _ hkc
  rw [List.getElem?_eq_getElem hk, List.getElem?_eq_getElem hkc] at hp
  injection hp with hp
  refine ⟨A, D, ?_⟩
  rw [hp, ← hAD]
  conv_lhs => rw [hkk]
  rw [flatten_getElem? vs hvs hkm, hr]
  rfl

/-! ## Meshed blocks -/

open Spec

/-- The variables of panel `(i, j)` of a block with `nc` chordwise rows. -/
noncomputable def meshVars (g : ℝ) (nc : ℕ) (pts : ℕ → ℕ → V3) (i j : ℕ) : PanelVars :=
  if i + 1 = nc then
    panelVars g (panelOf pts i j) (behindA (panelOf pts i j)) (behindD (panelOf pts i j))
  else panelVars g (panelOf pts i j) (quarterB (panelOf pts (i + 1) j))
    (quarterC (panelOf pts (i + 1) j))

theorem panelGrid_length (nc ns : ℕ) (pts : ℕ → ℕ → V3) :
    (panelGrid nc ns pts).length = nc * ns := grid_length nc ns _

theorem panelGrid_get {nc ns : ℕ} (pts : ℕ → ℕ → V3) {i j : ℕ} (hi : i < nc) (hj : j < ns) :
    (panelGrid nc ns pts)[i * ns + j]? = some (panelOf pts i j) :=
  grid_getElem? nc ns (panelOf pts) hi hj

theorem flagGrid_get {nc ns : ℕ} (row : ℕ → Bool) {i j : ℕ} (hi : i < nc) (hj : j < ns) :
    ((List.range nc).flatMap fun i => (List.range ns).map fun _ => row i)[i * ns + j]?
      = some (row i) :=
  grid_getElem? nc ns (fun i _ => row i) hi hj

theorem idx_of_getElem? {α : Type} {xs : List α} {i : ℕ} {a : α} (h : xs[i]? = some a) :
    idx xs i = .ok a := by unfold idx; rw [h]

theorem vlmVarsAt_grid (g : ℝ) {nc ns : ℕ} (pts : ℕ → ℕ → V3) {i j : ℕ} (hi : i < nc)
    (hj : j < ns) :
    vlmVarsAt g nc ns (panelGrid nc ns pts)
      ((List.range nc).flatMap fun i => (List.range ns).map fun _ => decide (i + 1 = nc))
      (i * ns + j) = .ok (meshVars g nc pts i j) := by
  have hlt : i * ns + j < nc * ns := by
    have := Nat.mul_le_mul_right ns (Nat.succ_le_of_lt hi)
    rw [Nat.succ_mul] at this
    omega
  unfold vlmVarsAt
  rw [idx_of_getElem? (panelGrid_get pts hi hj),
    idx_of_getElem? (flagGrid_get (fun i => decide (i + 1 = nc)) hi hj)]
  simp only [bind, Except.bind, not_le.2 hlt, if_false, decide_eq_true_eq]
  unfold meshVars
  by_cases h : i + 1 = nc
  · simp [h]
  · have hk : i * ns + j + ns = (i + 1) * ns + j := by ring
    rw [hk, idx_of_getElem? (panelGrid_get pts (by omega : i + 1 < nc) hj)]
    simp [h]

theorem vlmVarsAt_block (g : ℝ) {nc ns : ℕ} (pts : ℕ → ℕ → V3) :
    (List.range (panelGrid nc ns pts).length).mapM (vlmVarsAt g nc ns (panelGrid nc ns pts)
      ((List.range nc).flatMap fun i => (List.range ns).map fun _ => decide (i + 1 = nc))) =
      .ok ((List.range nc).flatMap fun i => (List.range ns).map fun j => meshVars g nc pts i j) := by
  have : ∀ k ∈ List.range (panelGrid nc ns pts).length,
      vlmVarsAt g nc ns (panelGrid nc ns pts)
      ((List.range nc).flatMap fun i => (List.range ns).map fun _ => decide (i + 1 = nc)) k =
      .ok (meshVars g nc pts (k / ns) (k % ns)) := by
    intro k hk
    rw [panelGrid_length, List.mem_range] at hk
    obtain ⟨i, j, hi, hj, rfl⟩ := grid_index hk
    have hns : 0 < ns := by omega
    rw [vlmVarsAt_grid g pts hi hj]
    congr 2
    · rw [Nat.mul_comm, Nat.mul_add_div hns, Nat.div_eq_of_lt hj]; simp
    · rw [Nat.mul_comm, Nat.mul_add_mod, Nat.mod_eq_of_lt hj]
  rw [mapM_ok this, panelGrid_length]
  congr 1
  apply List.ext_getElem?
  intro k
  by_cases hk : k < nc * ns
  · obtain ⟨i, j, hi, hj, rfl⟩ := grid_index hk
    have hns : 0 < ns := by omega
    rw [grid_getElem? nc ns (meshVars g nc pts) hi hj, List.getElem?_map,
      List.getElem?_range hk, Option.map_some]
    congr 2
    · rw [Nat.mul_comm, Nat.mul_add_div hns, Nat.div_eq_of_lt hj]; simp
    · rw [Nat.mul_comm, Nat.mul_add_mod, Nat.mod_eq_of_lt hj]
  · rw [List.getElem?_eq_none (by simpa using hk),
      List.getElem?_eq_none (by rw [grid_length]; omega)]

theorem blockPanels_length (nc ns : ℕ) (blocks : List (ℕ → ℕ → V3)) :
    (blockPanels nc ns blocks).length = blocks.length * (nc * ns) := by
  unfold blockPanels
  rw [length_flatten_eq (n := nc * ns) _ (by
    intro b hb
    obtain ⟨p, -, rfl⟩ := List.mem_map.1 hb
    exact panelGrid_length nc ns p), List.length_map]

theorem zip_replicate_right {α β : Type} (l : List α) (b : β) :
    l.zip (List.replicate l.length b) = l.map fun a => (a, b) := by
  induction l with
  | nil => rfl
  | cons a l ih => simp [List.replicate_succ, ih]

/-- What `calculate_vlm_variables` returns for meshed blocks. -/
theorem calculateVlmVariables_blocks (g : ℝ) {nc ns : ℕ} (hnc : 0 < nc) (hns : 0 < ns)
    (blocks : List (ℕ → ℕ → V3)) (hne : blocks ≠ []) :
    calculateVlmVariables (blockPanels nc ns blocks) (trailingFlags nc ns blocks.length) g nc ns =
      open Classical in
      if ∃ q ∈ blockPanels nc ns blocks, normalRaw q = 0 then .error .nonFinite
      else .ok (blocks.map fun pts =>
        (List.range nc).flatMap fun i => (List.range ns).map fun j => meshVars g nc pts i j).flatten := by
  have hn : 0 < nc * ns := Nat.mul_pos hnc hns
  have hG : (blockPanels nc ns blocks).length / (nc * ns) = blocks.length := by
    rw [blockPanels_length, Nat.mul_div_cancel _ hn]
  have hc : arraySplit (blockPanels nc ns blocks) blocks.length =
      .ok (blocks.map (panelGrid nc ns)) := by
    have := arraySplit_flatten (n := nc * ns) (blocks.map (panelGrid nc ns)) (by simpa using hne) (by
      intro b hb
      obtain ⟨p, -, rfl⟩ := List.mem_map.1 hb
      exact panelGrid_length nc ns p)
    rw [List.length_map] at this
    exact this
  have ht : arraySplit (trailingFlags nc ns blocks.length) blocks.length =
      .ok (List.replicate blocks.length ((List.range nc).flatMap fun i =>
        (List.range ns).map fun _ => decide (i + 1 = nc))) := by
    have := arraySplit_flatten (n := nc * ns) (List.replicate blocks.length
      ((List.range nc).flatMap fun i => (List.range ns).map fun _ => decide (i + 1 = nc)))
      (by simpa using hne) (by
        intro b hb
        rw [List.eq_of_mem_replicate hb]
        exact grid_length nc ns fun i _ => decide (i + 1 = nc))
    rw [List.length_replicate] at this
    exact this
  unfold calculateVlmVariables
  rw [if_neg hn.ne']
  simp only [hG, hc, ht, bind, Except.bind]
  have hz := zip_replicate_right (blocks.map (panelGrid nc ns)) ((List.range nc).flatMap fun i =>
        (List.range ns).map fun _ => decide (i + 1 = nc))
  rw [List.length_map] at hz
  rw [hz, mapM_comp, mapM_comp, mapM_ok (g := fun pts =>
    (List.range nc).flatMap fun i => (List.range ns).map fun j => meshVars g nc pts i j)
    (fun pts _ => vlmVarsAt_block g pts)]
  simp only
  rw [if_neg (by rw [blockPanels_length]; simp)]

theorem blocks_get {α : Type} {nc ns : ℕ} (blocks : List (ℕ → ℕ → V3))
    (f : (ℕ → ℕ → V3) → ℕ → ℕ → α) {b i j : ℕ} (hb : b < blocks.length) (hi : i < nc)
    (hj : j < ns) :
    (blocks.map fun pts => (List.range nc).flatMap fun i => (List.range ns).map fun j =>
      f pts i j).flatten[panelNo nc ns b i j]? = some (f blocks[b] i j) := by
  have e : panelNo nc ns b i j = b * (nc * ns) + (i * ns + j) := by unfold panelNo; ring
  have hlt : i * ns + j < nc * ns := by
    have := Nat.mul_le_mul_right ns (Nat.succ_le_of_lt hi)
    rw [Nat.succ_mul] at this
    omega
  rw [e, flatten_getElem? (n := nc * ns) _ (by
    intro l hl
    obtain ⟨p, -, rfl⟩ := List.mem_map.1 hl
    exact grid_length nc ns (f p)) hlt, List.getElem?_map, List.getElem?_eq_getElem hb]
  exact grid_getElem? nc ns (f blocks[b]) hi hj

theorem blockFlags_get {nc ns n b i j : ℕ} (row : ℕ → Bool) (hb : b < n) (hi : i < nc)
    (hj : j < ns) : (blockFlags nc ns n row)[panelNo nc ns b i j]? = some (row i) := by
  have := blocks_get (α := Bool) (nc := nc) (ns := ns)
    (List.replicate n (fun _ _ => (0 : V3))) (fun _ i _ => row i) (b := b) (i := i) (j := j)
    (by simpa using hb) hi hj
  rw [← this]
  unfold blockFlags
  rw [List.map_replicate]

theorem panelNo_lt {nc ns n b i j : ℕ} (hb : b < n) (hi : i < nc) (hj : j < ns) :
    panelNo nc ns b i j < n * (nc * ns) := by
  unfold panelNo
  have h1 : b * nc + i + 1 ≤ n * nc := by
    have := Nat.mul_le_mul_right nc (Nat.succ_le_of_lt hb)
    rw [Nat.succ_mul] at this
    omega
  have := Nat.mul_le_mul_right ns h1
  rw [Nat.succ_mul] at this
  rw [← Nat.mul_assoc]
  omega

theorem panelNo_surj {nc ns n k : ℕ} (hk : k < n * (nc * ns)) :
    ∃ b i j, b < n ∧ i < nc ∧ j < ns ∧ k = panelNo nc ns b i j := by
  obtain ⟨b, r, hb, hr, rfl⟩ := grid_index hk
  obtain ⟨i, j, hi, hj, rfl⟩ := grid_index hr
  exact ⟨b, i, j, hb, hi, hj, by unfold panelNo; ring⟩

end PySailing
