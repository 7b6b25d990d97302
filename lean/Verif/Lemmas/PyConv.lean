import Verif.Spec.NearFigures
import Verif.Lemmas.Coefs
import Verif.Lemmas.Scaling

/-!
# Computations whose results tend to that of a computation
-/

namespace PySailing

open Spec Filter Topology

variable {T : Type} {l : Filter T} {α β γ : Type}

/-- The computations `x t` succeed eventually and their results tend to the result of `x0`, if that succeeds. -/
def PyConv (l : Filter T) (R : (T → α) → α → Prop) (x : T → Py α) (x0 : Py α) : Prop :=
  ∀ a0, x0 = .ok a0 → ∃ a : T → α, (∀ᶠ t in l, x t = .ok (a t)) ∧ R a a0

namespace PyConv

variable {R : (T → α) → α → Prop} {S : (T → β) → β → Prop}

theorem ok {a : T → α} {a0 : α} (h : R a a0) : PyConv l R (fun t => .ok (a t)) (.ok a0) := by
  intro b hb
  cases hb
  exact ⟨a, .of_forall fun _ => rfl, h⟩

theorem congr' {x y : T → Py α} {x0 : Py α} (h : PyConv l R x x0) (e : ∀ᶠ t in l, x t = y t) : PyConv l R y x0 := by
  intro a0 h0
  obtain ⟨a, h1, h2⟩ := h a0 h0
  exact ⟨a, (h1.and e).mono fun t ht => ht.2 ▸ ht.1, h2⟩

theorem bind {x : T → Py α} {x0 : Py α} {f : T → α → Py β} {f0 : α → Py β} (h : PyConv l R x x0)
    (hf : ∀ a a0, R a a0 → PyConv l S (fun t => f t (a t)) (f0 a0)) :
    PyConv l S (fun t => x t >>= f t) (x0 >>= f0) := by
  intro b0 hb
  cases hx : x0 with
  | error e => rw [hx] at hb; cases hb
  | ok a0 =>
    rw [hx] at hb
    obtain ⟨a, h1, h2⟩ := h a0 hx
    obtain ⟨b, h3, h4⟩ := hf a a0 h2 b0 hb
    refine ⟨b, ?_, h4⟩
    filter_upwards [h1, h3] with t t1 t3
    rw [t1]
    exact t3

theorem error {x : T → Py α} {e : PyErr} : PyConv l R x (.error e) := by
  intro a h
  cases h

theorem mono {R' : (T → α) → α → Prop} {x : T → Py α} {x0 : Py α} (h : PyConv l R x x0) (hR : ∀ a a0, R a a0 → R' a a0) :
    PyConv l R' x x0 := by
  intro a0 h0
  obtain ⟨a, h1, h2⟩ := h a0 h0
  exact ⟨a, h1, hR _ _ h2⟩

theorem map {x : T → Py α} {x0 : Py α} (h : PyConv l R x x0) {f : T → α → β} {f0 : α → β}
    (hf : ∀ a a0, R a a0 → S (fun t => f t (a t)) (f0 a0)) : PyConv l S (fun t => (x t).map (f t)) (x0.map f0) := by
  intro b0 hb
  cases hx : x0 with
  | error e => rw [hx] at hb; cases hb
  | ok a0 =>
    rw [hx] at hb
    cases hb
    obtain ⟨a, h1, h2⟩ := h a0 hx
    exact ⟨_, h1.mono fun t ht => by beta_reduce; rw [ht]; rfl, hf _ _ h2⟩

end PyConv

theorem chunksOf_mem (xs : List α) (ns : List ℕ) {c : List α} (h : c ∈ chunksOf xs ns) {x : α} (hx : x ∈ c) : x ∈ xs := by
  induction ns generalizing xs with
  | nil => simp [chunksOf] at h
  | cons n ns ih =>
    rcases List.mem_cons.1 h with rfl | h
    · exact List.mem_of_mem_take hx
    · exact List.mem_of_mem_drop (ih _ h)

theorem npSplit_mem {xs : List α} {g : ℕ} {cs : List (List α)} (h : npSplit xs g = .ok cs) {c : List α} (hc : c ∈ cs) {x : α}
    (hx : x ∈ c) : x ∈ xs := by
  unfold npSplit at h
  split at h
  · cases h
  split at h
  · cases h
    exact chunksOf_mem _ _ hc hx
  · cases h

namespace Spec.TendList

variable {R : (T → α) → α → Prop} {S : (T → β) → β → Prop}

theorem congr' {xs ys : T → List α} {xs0 : List α} (h : TendList l R xs xs0) (e : ∀ᶠ t in l, xs t = ys t) : TendList l R ys xs0 := by
  obtain ⟨zs, h1, h2, h3⟩ := h
  exact ⟨zs, h1, (h2.and e).mono fun t ht => ht.2 ▸ ht.1, h3⟩

theorem mono {R' : (T → α) → α → Prop} {xs : T → List α} {xs0 : List α} (h : TendList l R xs xs0)
    (hR : ∀ a a0, R a a0 → R' a a0) : TendList l R' xs xs0 := by
  obtain ⟨zs, h1, h2, h3⟩ := h
  exact ⟨zs, h1, h2, fun z hz => hR _ _ (h3 z hz)⟩

theorem nil : TendList l R (fun _ => []) [] := ⟨[], rfl, .of_forall fun _ => rfl, by simp⟩

theorem cons {x : T → α} {x0 : α} {xs : T → List α} {xs0 : List α} (hx : R x x0) (h : TendList l R xs xs0) :
    TendList l R (fun t => x t :: xs t) (x0 :: xs0) := by
  obtain ⟨zs, h1, h2, h3⟩ := h
  refine ⟨(x, x0) :: zs, by rw [List.map_cons, h1], h2.mono fun t ht => by simp [ht], fun z hz => ?_⟩
  rcases List.mem_cons.1 hz with rfl | hz
  · exact hx
  · exact h3 z hz

theorem lengths {xs : T → List α} {xs0 : List α} (h : TendList l R xs xs0) : ∀ᶠ t in l, (xs t).length = xs0.length := by
  obtain ⟨zs, h1, h2, h3⟩ := h
  exact h2.mono fun t ht => by rw [ht, h1, List.length_map, List.length_map]

theorem map {xs : T → List α} {xs0 : List α} (h : TendList l R xs xs0) {f : T → α → β} {f0 : α → β}
    (hf : ∀ a a0, R a a0 → S (fun t => f t (a t)) (f0 a0)) : TendList l S (fun t => (xs t).map (f t)) (xs0.map f0) := by
  obtain ⟨zs, h1, h2, h3⟩ := h
  refine ⟨zs.map fun z => (fun t => f t (z.1 t), f0 z.2), ?_, ?_, ?_⟩
  · rw [h1]; simp [Function.comp_def]
  · exact h2.mono fun t ht => by beta_reduce; rw [ht]; simp [Function.comp_def]
  · intro z hz
    obtain ⟨y, hy, rfl⟩ := List.mem_map.1 hz
    exact hf _ _ (h3 y hy)

theorem range (n : ℕ) {f : T → ℕ → β} {f0 : ℕ → β} (hf : ∀ i < n, S (fun t => f t i) (f0 i)) :
    TendList l S (fun t => (List.range n).map (f t)) ((List.range n).map f0) :=
  ⟨(List.range n).map fun i => (fun t => f t i, f0 i), by simp [Function.comp_def], .of_forall fun t => by simp [Function.comp_def],
    fun z hz => by
      obtain ⟨i, hi, rfl⟩ := List.mem_map.1 hz
      exact hf i (List.mem_range.1 hi)⟩

theorem append {xs ys : T → List α} {xs0 ys0 : List α} (h : TendList l R xs xs0) (h' : TendList l R ys ys0) :
    TendList l R (fun t => xs t ++ ys t) (xs0 ++ ys0) := by
  obtain ⟨zs, h1, h2, h3⟩ := h
  obtain ⟨zs', h1', h2', h3'⟩ := h'
  refine ⟨zs ++ zs', by rw [h1, h1', List.map_append], ?_, ?_⟩
  · filter_upwards [h2, h2'] with t t1 t2
    rw [t1, t2, List.map_append]
  · intro z hz
    rcases List.mem_append.1 hz with hz | hz
    · exact h3 z hz
    · exact h3' z hz

theorem zip {xs : T → List α} {xs0 : List α} {ys : T → List β} {ys0 : List β} (h : TendList l R xs xs0) (h' : TendList l S ys ys0) :
    TendList l (fun z z0 => R (fun t => (z t).1) z0.1 ∧ S (fun t => (z t).2) z0.2) (fun t => (xs t).zip (ys t)) (xs0.zip ys0) := by
  obtain ⟨zs, h1, h2, h3⟩ := h
  obtain ⟨zs', h1', h2', h3'⟩ := h'
  refine ⟨(zs.zip zs').map fun z => (fun t => (z.1.1 t, z.2.1 t), (z.1.2, z.2.2)), ?_, ?_, ?_⟩
  · rw [h1, h1', List.zip_map, List.map_map]; rfl
  · filter_upwards [h2, h2'] with t t1 t2
    rw [t1, t2, List.zip_map, List.map_map]; rfl
  · intro z hz
    obtain ⟨y, hy, rfl⟩ := List.mem_map.1 hz
    exact ⟨h3 _ (List.of_mem_zip hy).1, h3' _ (List.of_mem_zip hy).2⟩

theorem flatten {xs : T → List (List α)} {xs0 : List (List α)} (h : TendList l (TendList l R) xs xs0) :
    TendList l R (fun t => (xs t).flatten) xs0.flatten := by
  obtain ⟨zs, h1, h2, h3⟩ := h
  subst h1
  refine TendList.congr' ?_ (h2.mono fun t ht => congrArg List.flatten ht.symm)
  clear h2
  induction zs with
  | nil => exact nil
  | cons z zs ih =>
    simp only [List.map_cons, List.flatten_cons]
    exact (h3 z (by simp)).append (ih fun y hy => h3 y (by simp [hy]))

theorem sum {xs : T → List ℝ} {xs0 : List ℝ} (h : TendList l (Tends l) xs xs0) :
    Tendsto (fun t => (xs t).sum) l (𝓝 xs0.sum) := by
  obtain ⟨zs, h1, h2, h3⟩ := h
  subst h1
  refine Tendsto.congr' (h2.mono fun t ht => congrArg List.sum ht.symm) ?_
  clear h2
  induction zs with
  | nil => exact tendsto_const_nhds
  | cons z zs ih =>
    simp only [List.map_cons, List.sum_cons]
    exact Tendsto.add (h3 z (by simp)) (ih fun y hy => h3 y (by simp [hy]))

theorem mapM {xs : T → List α} {xs0 : List α} (h : TendList l R xs xs0) {f : T → α → Py β} {f0 : α → Py β}
    (hf : ∀ a a0, R a a0 → PyConv l S (fun t => f t (a t)) (f0 a0)) :
    PyConv l (TendList l S) (fun t => (xs t).mapM (f t)) (xs0.mapM f0) := by
  obtain ⟨zs, h1, h2, h3⟩ := h
  subst h1
  refine PyConv.congr' (x := fun t => (zs.map fun z => z.1 t).mapM (f t)) ?_ (h2.mono fun t ht => by rw [ht])
  clear h2
  induction zs with
  | nil => exact PyConv.ok nil
  | cons z zs ih =>
    simp only [List.map_cons, List.mapM_cons]
    refine PyConv.bind (hf _ _ (h3 z (by simp))) fun a a0 ha => ?_
    exact PyConv.bind (ih fun y hy => h3 y (by simp [hy])) fun b b0 hb => PyConv.ok (cons ha hb)

theorem rangeM (n : ℕ) {f : T → ℕ → Py β} {f0 : ℕ → Py β} (hf : ∀ i < n, PyConv l S (fun t => f t i) (f0 i)) :
    PyConv l (TendList l S) (fun t => (List.range n).mapM (f t)) ((List.range n).mapM f0) := by
  have h : TendList l (fun (a : T → ℕ) a0 => a0 < n ∧ ∀ t, a t = a0) (fun _ => List.range n) (List.range n) := by
    simpa using range (l := l) (S := fun (a : T → ℕ) a0 => a0 < n ∧ ∀ t, a t = a0) n (f := fun _ i => i) (f0 := fun i => i)
      fun i hi => ⟨hi, fun _ => rfl⟩
  refine h.mapM fun a a0 ha => ?_
  have : (fun t => f t (a t)) = fun t => f t a0 := funext fun t => by rw [ha.2 t]
  rw [this]
  exact hf a0 ha.1

theorem idx {xs : T → List α} {xs0 : List α} (h : TendList l R xs xs0) (i : ℕ) :
    PyConv l R (fun t => PySailing.idx (xs t) i) (PySailing.idx xs0 i) := by
  obtain ⟨zs, h1, h2, h3⟩ := h
  subst h1
  refine PyConv.congr' (x := fun t => PySailing.idx (zs.map fun z => z.1 t) i) ?_ (h2.mono fun t ht => by rw [ht])
  simp only [idx_map]
  cases hz : PySailing.idx zs i with
  | error e => exact PyConv.error
  | ok z =>
    refine PyConv.ok (h3 z ?_)
    unfold PySailing.idx at hz
    split at hz
    · rename_i y hy
      cases hz
      exact List.mem_of_getElem? hy
    · cases hz

theorem npSplit {xs : T → List α} {xs0 : List α} (h : TendList l R xs xs0) (g : ℕ) :
    PyConv l (TendList l (TendList l R)) (fun t => PySailing.npSplit (xs t) g) (PySailing.npSplit xs0 g) := by
  obtain ⟨zs, h1, h2, h3⟩ := h
  subst h1
  refine PyConv.congr' (x := fun t => PySailing.npSplit (zs.map fun z => z.1 t) g) ?_ (h2.mono fun t ht => by rw [ht])
  simp only [npSplit_map]
  cases hz : PySailing.npSplit zs g with
  | error e => exact PyConv.error
  | ok cs =>
    refine PyConv.ok ⟨cs.map fun c => (fun t => c.map fun z => z.1 t, c.map Prod.snd), by simp [Function.comp_def],
      .of_forall fun t => by simp [Function.comp_def], fun c hc => ?_⟩
    obtain ⟨d, hd, rfl⟩ := List.mem_map.1 hc
    exact ⟨d, rfl, .of_forall fun t => rfl, fun z hzd => h3 z (npSplit_mem hz hd hzd)⟩

theorem stripColumn {xs : T → List α} {xs0 : List α} (h : TendList l R xs xs0) (nc ns j : ℕ) :
    PyConv l (TendList l R) (fun t => PySailing.stripColumn nc ns (xs t) j) (PySailing.stripColumn nc ns xs0 j) := by
  unfold PySailing.stripColumn
  by_cases hl : xs0.length = nc * ns
  · rw [if_neg (by simpa using hl)]
    refine PyConv.congr' (rangeM nc fun m _ => h.idx (m * ns + j)) (h.lengths.mono fun t ht => ?_)
    rw [if_neg (by rw [ht]; simpa using hl)]
  · rw [if_pos hl]
    exact PyConv.error

theorem of_getD {xs : T → List α} {xs0 : List α} (d : α) (hl : ∀ᶠ t in l, (xs t).length = xs0.length)
    (h : ∀ k, R (fun t => (xs t).getD k d) (xs0.getD k d)) : TendList l R xs xs0 := by
  have e : ∀ ys : List α, ys = (List.range ys.length).map fun k => ys.getD k d := fun ys => by
    apply List.ext_getElem
    · simp
    · intro i h1 h2
      simp [List.getD_eq_getElem?_getD, h1]
  have := range (l := l) (S := R) xs0.length (f := fun t k => (xs t).getD k d) (f0 := fun k => xs0.getD k d) fun i _ => h i
  rw [← e] at this
  refine this.congr' (hl.mono fun t ht => ?_)
  rw [← ht, ← e]

end Spec.TendList

end PySailing
