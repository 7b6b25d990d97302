import Verif.Spec.Results
import Verif.Lemmas.LatticeVars
import Verif.Lemmas.Csys
import Verif.Lemmas.Isometry

/-!
# Lemmas on the results
-/

namespace PySailing

open Spec

/-! ### Dictionaries -/

theorem PyDict.set_self (d : PyDict) (k : String) (v : ℝ) : d.set k v k = some v := by
  simp [PyDict.set]

theorem PyDict.set_other (d : PyDict) {k k' : String} (v : ℝ) (h : k' ≠ k) :
    d.set k v k' = d k' := by
  simp [PyDict.set, h]

theorem suffix_ne {a b : String} {s t : String} (h : s.toList.getLast? ≠ t.toList.getLast?)
    (hs : s.toList ≠ []) (ht : t.toList ≠ []) : a ++ s ≠ b ++ t := by
  intro he
  have := congrArg String.toList he
  rw [String.toList_append, String.toList_append] at this
  have := congrArg List.getLast? this
  rw [List.getLast?_append_of_ne_nil _ hs, List.getLast?_append_of_ne_nil _ ht] at this
  exact h this

theorem xy (a b : String) : a ++ ".x" ≠ b ++ ".y" := suffix_ne (by simp) (by simp) (by simp)
theorem yx (a b : String) : a ++ ".y" ≠ b ++ ".x" := suffix_ne (by simp) (by simp) (by simp)
theorem xz (a b : String) : a ++ ".x" ≠ b ++ ".z" := suffix_ne (by simp) (by simp) (by simp)
theorem zx (a b : String) : a ++ ".z" ≠ b ++ ".x" := suffix_ne (by simp) (by simp) (by simp)
theorem yz (a b : String) : a ++ ".y" ≠ b ++ ".z" := suffix_ne (by simp) (by simp) (by simp)
theorem zy (a b : String) : a ++ ".z" ≠ b ++ ".y" := suffix_ne (by simp) (by simp) (by simp)

theorem suffix_eq {a b s t : String} (hs : s ∈ [".x", ".y", ".z"]) (ht : t ∈ [".x", ".y", ".z"])
    (h : a ++ s = b ++ t) : a = b := by
  simp only [List.mem_cons, List.not_mem_nil, or_false] at hs ht
  rcases hs with rfl | rfl | rfl <;> rcases ht with rfl | rfl | rfl <;>
    first
    | exact (String.append_left_inj _).1 h
    | exact absurd h (xy _ _)
    | exact absurd h (yx _ _)
    | exact absurd h (xz _ _)
    | exact absurd h (zx _ _)
    | exact absurd h (yz _ _)
    | exact absurd h (zy _ _)

theorem PyDict.setVec_x (d : PyDict) (key key' : String) (v : V3) :
    d.setVec key v (key' ++ ".x") = if key' = key then some v.x else d (key' ++ ".x") := by
  unfold PyDict.setVec
  rw [PyDict.set_other _ _ (xz _ _), PyDict.set_other _ _ (xy _ _)]
  split_ifs with h
  · rw [h, PyDict.set_self]
  · rw [PyDict.set_other _ _ (by simpa using h)]

theorem PyDict.setVec_y (d : PyDict) (key key' : String) (v : V3) :
    d.setVec key v (key' ++ ".y") = if key' = key then some v.y else d (key' ++ ".y") := by
  unfold PyDict.setVec
  rw [PyDict.set_other _ _ (yz _ _)]
  split_ifs with h
  · rw [h, PyDict.set_self]
  · rw [PyDict.set_other _ _ (by simpa using h), PyDict.set_other _ _ (yx _ _)]

theorem PyDict.setVec_z (d : PyDict) (key key' : String) (v : V3) :
    d.setVec key v (key' ++ ".z") = if key' = key then some v.z else d (key' ++ ".z") := by
  unfold PyDict.setVec
  split_ifs with h
  · rw [h, PyDict.set_self]
  · rw [PyDict.set_other _ _ (by simpa using h), PyDict.set_other _ _ (zy _ _),
      PyDict.set_other _ _ (zx _ _)]

/-- A key that does not end in `.x`, `.y`, `.z` is not touched. -/
theorem PyDict.setVec_other (d : PyDict) {key k : String} (v : V3) (hx : k ≠ key ++ ".x")
    (hy : k ≠ key ++ ".y") (hz : k ≠ key ++ ".z") : d.setVec key v k = d k := by
  unfold PyDict.setVec
  rw [PyDict.set_other _ _ hz, PyDict.set_other _ _ hy, PyDict.set_other _ _ hx]

theorem rowVec_setVec (d : PyDict) (key key' : String) (v : V3) :
    rowVec (d.setVec key v) key' = if key' = key then some v else rowVec d key' := by
  unfold rowVec
  rw [PyDict.setVec_x, PyDict.setVec_y, PyDict.setVec_z]
  split_ifs <;> rfl

/-! ### The loop over the sails -/

theorem calcMoments_ok {r F : List V3} (h : r.length = F.length) :
    calcMoments r F = .ok (List.zipWith V3.cross r F) := by
  unfold calcMoments
  rw [if_pos h]

/-- Key of the force rows of a sail. -/
def keyF (name : String) : String := "F_" ++ name ++ "_total_COG"
/-- Key of the moment rows of a sail. -/
def keyM (name : String) : String := "M_" ++ name ++ "_total_COG"

theorem keyF_inj {a b : String} : keyF a = keyF b ↔ a = b := by
  unfold keyF
  rw [String.append_left_inj, String.append_right_inj]

theorem keyM_inj {a b : String} : keyM a = keyM b ↔ a = b := by
  unfold keyM
  rw [String.append_left_inj, String.append_right_inj]

theorem keyF_ne_keyM (a b : String) : keyF a ≠ keyM b := by
  intro h
  have := congrArg String.toList h
  simp [keyF, keyM] at this

theorem flowSail_ok (name : String) {F r : List V3} (h : r.length = F.length) (d : PyDict) :
    flowSail name F r d = .ok ((d.setVec (keyF name) F.sum).setVec (keyM name)
      (List.zipWith V3.cross r F).sum) := by
  unfold flowSail
  rw [calcMoments_ok h]
  rfl

theorem rowVec_flowSail (d : PyDict) (name key : String) (u v : V3) :
    rowVec ((d.setVec (keyF name) u).setVec (keyM name) v) key =
      if key = keyM name then some v else if key = keyF name then some u else rowVec d key := by
  rw [rowVec_setVec, rowVec_setVec]

/-- The loop over the sails: it writes the total of every sail unless a later sail has the same name,
and nothing else. -/
theorem flowSails_ok (sails : List SailGeom) : ∀ (Fs rs : List (List V3)) (d : PyDict),
    Fs.length = sails.length → rs.length = sails.length →
    (∀ b, (rs.getD b []).length = (Fs.getD b []).length) →
    ∃ d', flowSails sails Fs rs d = .ok d' ∧
      (∀ b (hb : b < sails.length), (∀ c (hc : c < sails.length), b < c →
          sails[c].name ≠ sails[b].name) →
        rowVec d' (keyF sails[b].name) = some (Fs.getD b []).sum ∧
        rowVec d' (keyM sails[b].name) =
          some (List.zipWith V3.cross (rs.getD b []) (Fs.getD b [])).sum) ∧
      (∀ k, (∀ s ∈ sails, ∀ t ∈ [".x", ".y", ".z"], k ≠ keyF s.name ++ t ∧ k ≠ keyM s.name ++ t) →
        d' k = d k) := by
  induction sails with
  | nil =>
    intro Fs rs d h1 h2 h3
    exact ⟨d, by simp [flowSails], by simp, by simp⟩
  | cons s ss ih =>
    intro Fs rs d h1 h2 h3
    match Fs, rs, h1, h2, h3 with
    | F :: Fs, r :: rs, h1, h2, h3 =>
      obtain ⟨d', hd, hrow, hoth⟩ := ih Fs rs ((d.setVec (keyF s.name) F.sum).setVec (keyM s.name)
        (List.zipWith V3.cross r F).sum) (by simpa using h1) (by simpa using h2)
        (fun b => by simpa using h3 (b + 1))
      refine ⟨d', ?_, ?_, ?_⟩
      · simp only [flowSails]
        rw [flowSail_ok s.name (by simpa using h3 0)]
        exact hd
      · intro b hb hlast
        cases b with
        | zero =>
          have hne : ∀ t ∈ ss, t.name ≠ s.name := by
            intro t ht
            obtain ⟨c, hc, rfl⟩ := List.getElem_of_mem ht
            exact hlast (c + 1) (Nat.succ_lt_succ hc) (by omega)
          have hF : ∀ t ∈ [".x", ".y", ".z"], d' (keyF s.name ++ t) = _ := fun t ht =>
            hoth (keyF s.name ++ t) fun q hq u hu =>
              ⟨fun he => hne q hq (keyF_inj.1 (suffix_eq ht hu he)).symm,
                fun he => keyF_ne_keyM _ _ (suffix_eq ht hu he)⟩
          have hM : ∀ t ∈ [".x", ".y", ".z"], d' (keyM s.name ++ t) = _ := fun t ht =>
            hoth (keyM s.name ++ t) fun q hq u hu =>
              ⟨fun he => keyF_ne_keyM _ _ (suffix_eq ht hu he).symm,
                fun he => hne q hq (keyM_inj.1 (suffix_eq ht hu he)).symm⟩
          simp only [List.getElem_cons_zero, List.getD_cons_zero]
          constructor
          · have := rowVec_flowSail d s.name (keyF s.name) F.sum (List.zipWith V3.cross r F).sum
            rw [if_neg (keyF_ne_keyM _ _), if_pos rfl] at this
            rw [← this]
            unfold rowVec
            rw [hF _ (by simp), hF _ (by simp), hF _ (by simp)]
          · have := rowVec_flowSail d s.name (keyM s.name) F.sum (List.zipWith V3.cross r F).sum
            rw [if_pos rfl] at this
            rw [← this]
            unfold rowVec
            rw [hM _ (by simp), hM _ (by simp), hM _ (by simp)]
        | succ b =>
          simp only [List.getElem_cons_succ, List.getD_cons_succ]
          exact hrow b (by simpa using hb) fun c hc hbc =>
            hlast (c + 1) (Nat.succ_lt_succ hc) (by omega)
      · intro k hk
        rw [hoth k fun t ht => hk t (by simp [ht])]
        have := hk s (by simp)
        rw [PyDict.setVec_other _ _ (this _ (by simp)).2 (this _ (by simp)).2 (this _ (by simp)).2,
          PyDict.setVec_other _ _ (this _ (by simp)).1 (this _ (by simp)).1 (this _ (by simp)).1]

/-! ### Chunks and sums -/

theorem take_sum (xs : List V3) (n : ℕ) : (xs.take n).sum = ∑ k ∈ Finset.range n, row xs k := by
  induction n generalizing xs with
  | zero => simp
  | succ n ih =>
    cases xs with
    | nil => simp [row]
    | cons x xs =>
      rw [List.take_succ_cons, List.sum_cons, ih, Finset.sum_range_succ']
      simp only [row, List.getD_cons_succ, List.getD_cons_zero]
      rw [add_comm]

theorem row_drop (xs : List V3) (d k : ℕ) : row (xs.drop d) k = row xs (d + k) := by
  simp only [row, List.getD_eq_getElem?_getD, List.getElem?_drop]

theorem row_take (xs : List V3) {n k : ℕ} (h : k < n) : row (xs.take n) k = row xs k := by
  simp only [row, List.getD_eq_getElem?_getD, List.getElem?_take, if_pos h]

theorem row_map {f : V3 → V3} {xs : List V3} {k : ℕ} (h : k < xs.length) :
    row (xs.map f) k = f (row xs k) := by
  simp only [row, List.getD_eq_getElem?_getD, List.getElem?_map, List.getElem?_eq_getElem h]
  rfl

theorem row_zipWith {f : V3 → V3 → V3} {xs ys : List V3} {k : ℕ} (hx : k < xs.length)
    (hy : k < ys.length) : row (List.zipWith f xs ys) k = f (row xs k) (row ys k) := by
  simp only [row, List.getD_eq_getElem?_getD, List.getElem?_zipWith, List.getElem?_eq_getElem hx,
    List.getElem?_eq_getElem hy]
  rfl

theorem arraySplit_chunks {α : Type} {xs : List α} {g n : ℕ} (hg : 0 < g)
    (hx : xs.length = g * n) :
    ∃ cs, arraySplit xs g = .ok cs ∧ cs.length = g ∧
      ∀ b, b < g → cs[b]? = some ((xs.drop (b * n)).take n) := by
  have h0 : arraySplit xs g = .ok (chunksOf xs (List.replicate g n)) := by
    unfold arraySplit
    rw [if_neg hg.ne', hx, Nat.mul_mod_right, Nat.mul_div_cancel_left _ hg]
    simp
  refine ⟨_, h0, by rw [chunksOf_length, List.length_replicate], ?_⟩
  clear h0
  have key : ∀ (g : ℕ) (xs : List α) (b : ℕ), b < g →
      (chunksOf xs (List.replicate g n))[b]? = some ((xs.drop (b * n)).take n) := by
    intro g
    induction g with
    | zero => intro xs b hb; omega
    | succ g ih =>
      intro xs b hb
      rw [List.replicate_succ, chunksOf]
      cases b with
      | zero => simp
      | succ b =>
        rw [List.getElem?_cons_succ, ih _ b (by omega), List.drop_drop]
        congr 3
        ring
  exact key g xs

theorem sum_blocks (n m : ℕ) (f : ℕ → V3) :
    ∑ b ∈ Finset.range n, sailSum m b f = ∑ k ∈ Finset.range (n * m), f k := by
  induction n with
  | zero => simp
  | succ n ih =>
    rw [Finset.sum_range_succ, ih, Nat.succ_mul, Finset.sum_range_add]
    rfl

theorem momentArm_eq (v p : V3) : momentArm v p = armFrom v p := by
  unfold momentArm armFrom
  split_ifs with h
  · ext <;> simp
  · ext <;> simp [mirror]

/-- What the constructor of `InviscidFlowResults` computes. -/
theorem inviscidFlow_ok {sails : List SailGeom} {m : ℕ} (hn : sails ≠ []) (csys : Csys)
    (a : FlowArrays) (hF : a.force.length = 2 * (sails.length * m))
    (hcp : a.cp.length = a.force.length) :
    ∃ res, inviscidFlow sails csys a = .ok res ∧
      res.csys = csys ∧ res.force = a.force ∧
      res.forceTotal = ∑ k ∈ Finset.range (sails.length * m), row a.force k ∧
      res.moment.length = a.force.length ∧
      (∀ k, k < a.force.length →
        row res.moment k = V3.cross (armFrom csys.vRef (row a.cp k)) (row a.force k)) ∧
      res.momentTotal = ∑ k ∈ Finset.range (sails.length * m),
        V3.cross (armFrom csys.vRef (row a.cp k)) (row a.force k) ∧
      res.centreOfEffort = determineVector res.forceTotal
        (∑ k ∈ Finset.range (sails.length * m), (armFrom csys.vRef (row a.cp k)).dot (row a.force k))
        res.momentTotal ∧
      res.forceCl = a.force.map csys.leeway.mulVec ∧
      res.forceClTotal = csys.leeway.mulVec res.forceTotal ∧
      res.momentClTotal = csys.leeway.mulVec res.momentTotal ∧
      (∀ b (hb : b < sails.length), (∀ c (hc : c < sails.length), b < c →
          sails[c].name ≠ sails[b].name) →
        rowVec res.dyn (keyF sails[b].name) = some (sailSum m b (row a.force)) ∧
        rowVec res.dyn (keyM sails[b].name) = some (sailSum m b fun k =>
          V3.cross (armFrom csys.vRef (row a.cp k)) (row a.force k))) ∧
      (∀ k, (∀ s ∈ sails, ∀ t ∈ [".x", ".y", ".z"], k ≠ keyF s.name ++ t ∧ k ≠ keyM s.name ++ t) →
        res.dyn k = none) := by
  have hpos : 0 < sails.length := List.length_pos_iff.2 hn
  have hhalf : a.force.length / 2 = sails.length * m := by omega
  obtain ⟨r, hr⟩ : ∃ r, r = calcMomentArm a.cp csys.vRef := ⟨_, rfl⟩
  have hrl : r.length = a.force.length := by rw [hr, calcMomentArm, List.length_map, hcp]
  have hrow : ∀ k, k < a.force.length → row r k = armFrom csys.vRef (row a.cp k) := by
    intro k hk
    rw [hr, calcMomentArm, row_map (by omega), momentArm_eq]
  obtain ⟨Fs, hFs, hFl, hFc⟩ := arraySplit_chunks (xs := a.force.take (sails.length * m)) (n := m)
    hpos (by rw [List.length_take]; omega)
  obtain ⟨rs, hrs, hrsl, hrc⟩ := arraySplit_chunks (xs := r.take (sails.length * m)) (n := m)
    hpos (by rw [List.length_take]; omega)
  have hchunk : ∀ (xs : List V3) (b k : ℕ), b < sails.length → k < m →
      row (((xs.take (sails.length * m)).drop (b * m)).take m) k = row xs (b * m + k) := by
    intro xs b k hb hk
    rw [row_take _ hk, row_drop, row_take]
    calc b * m + k < b * m + m := by omega
      _ = (b + 1) * m := by ring
      _ ≤ sails.length * m := Nat.mul_le_mul_right _ hb
  have hlen : ∀ (xs : List V3) (b : ℕ), b < sails.length → xs.length = a.force.length →
      (((xs.take (sails.length * m)).drop (b * m)).take m).length = m := by
    intro xs b hb hx
    have h1 : (b + 1) * m ≤ sails.length * m := Nat.mul_le_mul_right _ hb
    rw [Nat.succ_mul] at h1
    rw [List.length_take, List.length_drop, List.length_take]
    omega
  have hgetF : ∀ b, b < sails.length →
      Fs.getD b [] = ((a.force.take (sails.length * m)).drop (b * m)).take m := by
    intro b hb; rw [List.getD_eq_getElem?_getD, hFc b hb]; rfl
  have hgetr : ∀ b, b < sails.length →
      rs.getD b [] = ((r.take (sails.length * m)).drop (b * m)).take m := by
    intro b hb; rw [List.getD_eq_getElem?_getD, hrc b hb]; rfl
  obtain ⟨d, hd, hdrow, hdoth⟩ := flowSails_ok sails Fs rs PyDict.empty hFl hrsl (by
    intro b
    by_cases hb : b < sails.length
    · rw [hgetF b hb, hgetr b hb, hlen _ b hb hrl, hlen _ b hb rfl]
    · rw [List.getD_eq_getElem?_getD, List.getD_eq_getElem?_getD, List.getElem?_eq_none (by omega),
        List.getElem?_eq_none (by omega)])
  have hM := calcMoments_ok hrl
  have hMl : (List.zipWith V3.cross r a.force).length = a.force.length := by
    rw [List.length_zipWith, hrl, min_self]
  have hMrow : ∀ k, k < a.force.length → row (List.zipWith V3.cross r a.force) k =
      V3.cross (armFrom csys.vRef (row a.cp k)) (row a.force k) := by
    intro k hk
    rw [row_zipWith (by omega) hk, hrow k hk]
  have hMtot : (extractAboveWater (List.zipWith V3.cross r a.force)).2 =
      ∑ k ∈ Finset.range (sails.length * m),
        V3.cross (armFrom csys.vRef (row a.cp k)) (row a.force k) := by
    unfold extractAboveWater
    simp only [hMl, hhalf]
    rw [take_sum]
    exact Finset.sum_congr rfl fun k hk => hMrow k (by rw [Finset.mem_range] at hk; omega)
  have hFtot : (extractAboveWater a.force).2 =
      ∑ k ∈ Finset.range (sails.length * m), row a.force k := by
    unfold extractAboveWater
    simp only [hhalf]
    rw [take_sum]
  have hcl : ∀ xs : List V3, (extractAboveWater (csys.fromXyzToCenterline xs)).2 =
      csys.leeway.mulVec (extractAboveWater xs).2 := by
    intro xs
    unfold extractAboveWater Csys.fromXyzToCenterline
    simp only [List.length_map]
    rw [← List.map_take, Csys.leeway_sum]
  have hdot : (extractAboveWater (List.zipWith V3.dot r a.force)).2 =
      ∑ k ∈ Finset.range (sails.length * m),
        (armFrom csys.vRef (row a.cp k)).dot (row a.force k) := by
    unfold extractAboveWater
    have : (List.zipWith V3.dot r a.force).length = a.force.length := by
      rw [List.length_zipWith, hrl, min_self]
    simp only [this, hhalf]
    have key : ∀ n, n ≤ a.force.length → ((List.zipWith V3.dot r a.force).take n).sum =
        ∑ k ∈ Finset.range n, (armFrom csys.vRef (row a.cp k)).dot (row a.force k) := by
      intro n
      induction n with
      | zero => simp
      | succ n ih =>
        intro hn
        rw [Finset.sum_range_succ, ← ih (by omega), List.take_add_one, List.sum_append,
          List.getElem?_zipWith, ← hrow n (by omega)]
        simp only [row, List.getD_eq_getElem?_getD,
          List.getElem?_eq_getElem (show n < r.length by omega),
          List.getElem?_eq_getElem (show n < a.force.length by omega)]
        simp
    exact key _ (by omega)
  unfold inviscidFlow
  simp only [bind, Except.bind]
  rw [← hr, hhalf, hFs, hrs]
  simp only [hd, hM]
  refine ⟨_, rfl, rfl, rfl, hFtot, hMl, hMrow, hMtot, ?_, rfl, hcl _, hcl _, ?_, ?_⟩
  · simp only [hdot]
  · intro b hb hlast
    obtain ⟨h1, h2⟩ := hdrow b hb hlast
    rw [h1, h2, hgetF b hb, hgetr b hb]
    constructor
    · congr 1
      have := take_sum ((a.force.take (sails.length * m)).drop (b * m)) m
      rw [this]
      refine Finset.sum_congr rfl fun k hk => ?_
      rw [Finset.mem_range] at hk
      rw [← hchunk _ b k hb hk, row_take _ hk]
    · congr 1
      have hl := hlen _ b hb hrl
      have hl' := hlen _ b hb (rfl : a.force.length = a.force.length)
      have e : List.zipWith V3.cross (((r.take (sails.length * m)).drop (b * m)).take m)
          (((a.force.take (sails.length * m)).drop (b * m)).take m) =
          (List.zipWith V3.cross (((r.take (sails.length * m)).drop (b * m)).take m)
          (((a.force.take (sails.length * m)).drop (b * m)).take m)).take m := by
        exact (List.take_of_length_le (by rw [List.length_zipWith, hl, hl', min_self])).symm
      rw [e, take_sum]
      refine Finset.sum_congr rfl fun k hk => ?_
      rw [Finset.mem_range] at hk
      rw [row_zipWith (by omega) (by omega), hchunk _ b k hb hk, hchunk _ b k hb hk, hrow]
      have h1 : (b + 1) * m ≤ sails.length * m := Nat.mul_le_mul_right _ hb
      rw [Nat.succ_mul] at h1
      omega
  · intro k hk
    exact hdoth k hk

/-! ### The sheet `Integrals` -/

theorem rowVec_update_none {d e : PyDict} {key : String}
    (h : ∀ t ∈ [".x", ".y", ".z"], e (key ++ t) = none) : rowVec (d.update e) key = rowVec d key := by
  unfold rowVec PyDict.update
  rw [h _ (by simp), h _ (by simp), h _ (by simp)]
  rfl

theorem rowVec_update_some {d e : PyDict} {key : String} {v : V3} (h : rowVec e key = some v) :
    rowVec (d.update e) key = some v := by
  unfold rowVec at h ⊢
  unfold PyDict.update
  cases hx : e (key ++ ".x") <;> cases hy : e (key ++ ".y") <;> cases hz : e (key ++ ".z") <;>
    simp [hx, hy, hz] at h ⊢
  exact h

theorem rowMoment_update_none {d e : PyDict} {key : String}
    (h : ∀ t ∈ [".x (heel)", ".y (pitch)", ".z (yaw)"], e (key ++ t) = none) :
    rowMoment (d.update e) key = rowMoment d key := by
  unfold rowMoment PyDict.update
  rw [h _ (by simp), h _ (by simp), h _ (by simp)]
  rfl

theorem rowMoment_update_some {d e : PyDict} {key : String} {v : V3} (h : rowMoment e key = some v) :
    rowMoment (d.update e) key = some v := by
  unfold rowMoment at h ⊢
  unfold PyDict.update
  cases hx : e (key ++ ".x (heel)") <;> cases hy : e (key ++ ".y (pitch)") <;>
    cases hz : e (key ++ ".z (yaw)") <;> simp [hx, hy, hz] at h ⊢
  exact h

theorem close_ne {a b s t : String} (hs : s ∈ [".x", ".y", ".z"])
    (ht : t ∈ [".x (heel)", ".y (pitch)", ".z (yaw)", ".z (yaw - JG sign)"]) : a ++ s ≠ b ++ t := by
  simp only [List.mem_cons, List.not_mem_nil, or_false] at hs ht
  rcases hs with rfl | rfl | rfl <;> rcases ht with rfl | rfl | rfl | rfl <;>
    exact suffix_ne (by simp) (by simp) (by simp)

theorem tail_ne {a b s t : String} (n : ℕ) (hs : n ≤ s.toList.length) (ht : n ≤ t.toList.length)
    (h : s.toList.reverse.take n ≠ t.toList.reverse.take n) : a ++ s ≠ b ++ t := by
  intro he
  have := congrArg String.toList he
  rw [String.toList_append, String.toList_append] at this
  have := congrArg (fun l => l.reverse.take n) this
  simp only [List.reverse_append] at this
  rw [List.take_append_of_le_length (by simpa using hs),
    List.take_append_of_le_length (by simpa using ht)] at this
  exact h this

theorem moment_suffix {a b s t : String}
    (hs : s ∈ [".x (heel)", ".y (pitch)", ".z (yaw)", ".z (yaw - JG sign)"])
    (ht : t ∈ [".x (heel)", ".y (pitch)", ".z (yaw)", ".z (yaw - JG sign)"]) (h : a ++ s = b ++ t) :
    s = t ∧ a = b := by
  simp only [List.mem_cons, List.not_mem_nil, or_false] at hs ht
  rcases hs with rfl | rfl | rfl | rfl <;> rcases ht with rfl | rfl | rfl | rfl <;>
    first
    | exact ⟨rfl, (String.append_left_inj _).1 h⟩
    | exact absurd h (tail_ne 3 (by simp) (by simp) (by simp))

theorem PyDict.setMomentCow_at (d : PyDict) (key key' : String) (v : V3) :
    d.setMomentCow key v (key' ++ ".x (heel)") =
      (if key' = key then some v.x else d (key' ++ ".x (heel)")) ∧
    d.setMomentCow key v (key' ++ ".y (pitch)") =
      (if key' = key then some v.y else d (key' ++ ".y (pitch)")) ∧
    d.setMomentCow key v (key' ++ ".z (yaw)") =
      (if key' = key then some v.z else d (key' ++ ".z (yaw)")) ∧
    d.setMomentCow key v (key' ++ ".z (yaw - JG sign)") =
      (if key' = key then some (-v.z) else d (key' ++ ".z (yaw - JG sign)")) := by
  have hne : ∀ s ∈ [".x (heel)", ".y (pitch)", ".z (yaw)", ".z (yaw - JG sign)"],
      ∀ t ∈ [".x (heel)", ".y (pitch)", ".z (yaw)", ".z (yaw - JG sign)"], (s ≠ t ∨ key' ≠ key) →
      key' ++ s ≠ key ++ t := by
    intro s hs t ht h he
    obtain ⟨h1, h2⟩ := moment_suffix hs ht he
    rcases h with h | h
    · exact h h1
    · exact h h2
  unfold PyDict.setMomentCow
  refine ⟨?_, ?_, ?_, ?_⟩
  · rw [PyDict.set_other _ _ (hne _ (by simp) _ (by simp) (.inl (by simp))),
      PyDict.set_other _ _ (hne _ (by simp) _ (by simp) (.inl (by simp))),
      PyDict.set_other _ _ (hne _ (by simp) _ (by simp) (.inl (by simp)))]
    split_ifs with h
    · rw [h, PyDict.set_self]
    · rw [PyDict.set_other _ _ (hne _ (by simp) _ (by simp) (.inr h))]
  · rw [PyDict.set_other _ _ (hne _ (by simp) _ (by simp) (.inl (by simp))),
      PyDict.set_other _ _ (hne _ (by simp) _ (by simp) (.inl (by simp)))]
    split_ifs with h
    · rw [h, PyDict.set_self]
    · rw [PyDict.set_other _ _ (hne _ (by simp) _ (by simp) (.inr h)),
        PyDict.set_other _ _ (hne _ (by simp) _ (by simp) (.inl (by simp)))]
  · rw [PyDict.set_other _ _ (hne _ (by simp) _ (by simp) (.inl (by simp)))]
    split_ifs with h
    · rw [h, PyDict.set_self]
    · rw [PyDict.set_other _ _ (hne _ (by simp) _ (by simp) (.inr h)),
        PyDict.set_other _ _ (hne _ (by simp) _ (by simp) (.inl (by simp))),
        PyDict.set_other _ _ (hne _ (by simp) _ (by simp) (.inl (by simp)))]
  · split_ifs with h
    · rw [h, PyDict.set_self]
    · rw [PyDict.set_other _ _ (hne _ (by simp) _ (by simp) (.inr h)),
        PyDict.set_other _ _ (hne _ (by simp) _ (by simp) (.inl (by simp))),
        PyDict.set_other _ _ (hne _ (by simp) _ (by simp) (.inl (by simp))),
        PyDict.set_other _ _ (hne _ (by simp) _ (by simp) (.inl (by simp)))]

theorem PyDict.setMomentCow_vec (d : PyDict) (key k : String) (v : V3) {t : String}
    (ht : t ∈ [".x", ".y", ".z"]) : d.setMomentCow key v (k ++ t) = d (k ++ t) := by
  unfold PyDict.setMomentCow
  rw [PyDict.set_other _ _ (close_ne ht (by simp)), PyDict.set_other _ _ (close_ne ht (by simp)),
    PyDict.set_other _ _ (close_ne ht (by simp)), PyDict.set_other _ _ (close_ne ht (by simp))]

theorem PyDict.setVec_moment (d : PyDict) (key k : String) (v : V3) {t : String}
    (ht : t ∈ [".x (heel)", ".y (pitch)", ".z (yaw)", ".z (yaw - JG sign)"]) :
    d.setVec key v (k ++ t) = d (k ++ t) :=
  PyDict.setVec_other _ _ (close_ne (by simp) ht).symm (close_ne (by simp) ht).symm
    (close_ne (by simp) ht).symm

theorem rowVec_setMomentCow (d : PyDict) (key key' : String) (v : V3) :
    rowVec (d.setMomentCow key v) key' = rowVec d key' := by
  unfold rowVec
  rw [PyDict.setMomentCow_vec _ _ _ _ (by simp), PyDict.setMomentCow_vec _ _ _ _ (by simp),
    PyDict.setMomentCow_vec _ _ _ _ (by simp)]

theorem rowMoment_setVec (d : PyDict) (key key' : String) (v : V3) :
    rowMoment (d.setVec key v) key' = rowMoment d key' := by
  unfold rowMoment
  rw [PyDict.setVec_moment _ _ _ _ (by simp), PyDict.setVec_moment _ _ _ _ (by simp),
    PyDict.setVec_moment _ _ _ _ (by simp)]

theorem rowMoment_setMomentCow (d : PyDict) (key key' : String) (v : V3) :
    rowMoment (d.setMomentCow key v) key' = if key' = key then some v else rowMoment d key' := by
  obtain ⟨h1, h2, h3, -⟩ := d.setMomentCow_at key key' v
  unfold rowMoment
  rw [h1, h2, h3]
  split_ifs <;> rfl

theorem rowVec_empty (key : String) : rowVec PyDict.empty key = none := rfl
theorem rowMoment_empty (key : String) : rowMoment PyDict.empty key = none := rfl

/-- A dictionary in which vectors are complete: if one component is missing all are. -/
def Whole (d : PyDict) : Prop := ∀ key, rowVec d key = none → ∀ t ∈ [".x", ".y", ".z"],
  d (key ++ t) = none

/-- The same for moments in the centre line system. -/
def WholeM (d : PyDict) : Prop := ∀ key, rowMoment d key = none →
  ∀ t ∈ [".x (heel)", ".y (pitch)", ".z (yaw)"], d (key ++ t) = none

theorem Whole.empty : Whole PyDict.empty := fun _ _ _ _ => rfl
theorem WholeM.empty : WholeM PyDict.empty := fun _ _ _ _ => rfl

theorem Whole.setVec {d : PyDict} (h : Whole d) (key : String) (v : V3) : Whole (d.setVec key v) := by
  intro k hk t ht
  rw [rowVec_setVec] at hk
  by_cases e : k = key
  · rw [if_pos e] at hk; cases hk
  · rw [if_neg e] at hk
    rw [PyDict.setVec_other _ _ (fun h' => e (suffix_eq ht (by simp) h'))
      (fun h' => e (suffix_eq ht (by simp) h')) (fun h' => e (suffix_eq ht (by simp) h'))]
    exact h k hk t ht

theorem Whole.setMomentCow {d : PyDict} (h : Whole d) (key : String) (v : V3) :
    Whole (d.setMomentCow key v) := by
  intro k hk t ht
  rw [rowVec_setMomentCow] at hk
  rw [PyDict.setMomentCow_vec _ _ _ _ ht]
  exact h k hk t ht

theorem WholeM.setVec {d : PyDict} (h : WholeM d) (key : String) (v : V3) :
    WholeM (d.setVec key v) := by
  intro k hk t ht
  rw [rowMoment_setVec] at hk
  rw [PyDict.setVec_moment _ _ _ _ (by simp at ht ⊢; tauto)]
  exact h k hk t ht

theorem WholeM.setMomentCow {d : PyDict} (h : WholeM d) (key : String) (v : V3) :
    WholeM (d.setMomentCow key v) := by
  intro k hk t ht
  rw [rowMoment_setMomentCow] at hk
  by_cases e : k = key
  · rw [if_pos e] at hk; cases hk
  · rw [if_neg e] at hk
    obtain ⟨h1, h2, h3, -⟩ := d.setMomentCow_at key k v
    have := h k hk t ht
    simp only [List.mem_cons, List.not_mem_nil, or_false] at ht
    rcases ht with rfl | rfl | rfl
    · rw [h1, if_neg e, this]
    · rw [h2, if_neg e, this]
    · rw [h3, if_neg e, this]

theorem rowVec_update {d e : PyDict} (h : Whole e) (key : String) :
    rowVec (d.update e) key = (rowVec e key).or (rowVec d key) := by
  cases he : rowVec e key with
  | none => rw [rowVec_update_none (h key he)]; rfl
  | some v => rw [rowVec_update_some he]; rfl

theorem rowMoment_update {d e : PyDict} (h : WholeM e) (key : String) :
    rowMoment (d.update e) key = (rowMoment e key).or (rowMoment d key) := by
  cases he : rowMoment e key with
  | none => rw [rowMoment_update_none (h key he)]; rfl
  | some v => rw [rowMoment_update_some he]; rfl

/-- The vector rows of the sheet that are not rows of a single sail. -/
theorem sheet_vec (o : FlowObject) {key : String}
    (hd : ∀ t ∈ [".x", ".y", ".z"], o.res.dyn (key ++ t) = none) :
    rowVec o.toDfIntegral key =
      (o.keel.bind fun k => if key = "M_total_COG" then some (o.res.momentTotal + k.1)
        else if key = "M_keel_total_COG" then some k.1 else none).or
      (if key = "M_sails_total_COG" then some o.res.momentTotal
        else if key = "F_sails_total_COW" then some o.res.forceClTotal
        else if key = "F_sails_total_COG" then some o.res.forceTotal else none) := by
  unfold FlowObject.toDfIntegral
  rw [rowVec_update_none hd]
  rcases o.keel with _ | ⟨k, kc⟩
  · simp only [rowVec_setMomentCow, rowVec_setVec, rowVec_empty]
    rfl
  · rw [rowVec_update ((((Whole.empty.setVec _ _).setMomentCow _ _).setVec _ _).setMomentCow _ _)]
    simp only [rowVec_setMomentCow, rowVec_setVec, rowVec_empty]
    rfl

/-- The moment rows of the sheet in the centre line system. -/
theorem sheet_moment (o : FlowObject) {key : String}
    (hd : ∀ t ∈ [".x (heel)", ".y (pitch)", ".z (yaw)"], o.res.dyn (key ++ t) = none) :
    rowMoment o.toDfIntegral key =
      (o.keel.bind fun k => if key = "M_total_COW" then some (o.res.momentClTotal + k.2)
        else if key = "M_keel_total_COW" then some k.2 else none).or
      (if key = "M_sails_total_COW" then some o.res.momentClTotal else none) := by
  unfold FlowObject.toDfIntegral
  rw [rowMoment_update_none hd]
  rcases o.keel with _ | ⟨k, kc⟩
  · simp only [rowMoment_setMomentCow, rowMoment_setVec, rowMoment_empty]
    rfl
  · rw [rowMoment_update ((((WholeM.empty.setVec _ _).setMomentCow _ _).setVec _ _).setMomentCow _ _)]
    simp only [rowMoment_setMomentCow, rowMoment_setVec, rowMoment_empty]
    rfl

theorem jg_other (d : PyDict) (k key : String) (v : V3) :
    d.setVec key v (k ++ ".z (yaw - JG sign)") = d (k ++ ".z (yaw - JG sign)") :=
  PyDict.setVec_moment _ _ _ _ (by simp)

/-- The rows `(yaw - JG sign)` of the sheet. -/
theorem sheet_jg (o : FlowObject) {key : String} (hd : o.res.dyn (key ++ ".z (yaw - JG sign)") = none) :
    o.toDfIntegral (key ++ ".z (yaw - JG sign)") =
      (o.keel.bind fun k => if key = "M_total_COW" then some (-(o.res.momentClTotal + k.2).z)
        else if key = "M_keel_total_COW" then some (-k.2.z) else none).or
      (if key = "M_sails_total_COW" then some (-o.res.momentClTotal.z) else none) := by
  unfold FlowObject.toDfIntegral
  unfold PyDict.update
  rw [hd]
  rcases o.keel with _ | ⟨k, kc⟩
  · simp only [(PyDict.setMomentCow_at _ _ _ _).2.2.2, jg_other, PyDict.empty]
    rfl
  · simp only [(PyDict.setMomentCow_at _ _ _ _).2.2.2, jg_other, PyDict.empty]
    rfl

theorem cross_sum_right {ι : Type} (s : Finset ι) (v : V3) (f : ι → V3) :
    V3.cross v (∑ k ∈ s, f k) = ∑ k ∈ s, V3.cross v (f k) := by
  classical
  induction s using Finset.induction_on with
  | empty => simp
  | insert a s ha ih => rw [Finset.sum_insert ha, Finset.sum_insert ha, V3.cross_add_right, ih]

end PySailing
