import Verif.Model.Main
import Verif.Lemmas.Runner
import Verif.Lemmas.Plotter
import Verif.Lemmas.Components

/-!
# Sizes of the arrays of a run
-/

namespace PySailing

open Spec

theorem makePanels_length (m : NdMesh) :
    (makePanelsFromMeshSpanwise m).panels.length = (m.n0 - 1) * (m.n1 - 1) := by
  unfold makePanelsFromMeshSpanwise
  exact grid_length _ _ (fun i j => panelAt m i j)

theorem makeAirfoilMesh_shape {a b : V3} {nc ns : ℕ} {chords distance camber : List ℝ} {m : NdMesh}
    (h : makeAirfoilMesh a b nc ns chords distance camber = .ok m) : m.n0 = ns + 1 ∧ m.n1 = nc + 1 := by
  unfold makeAirfoilMesh at h
  simp only [bind, Except.bind, pure, Except.pure] at h
  split at h
  · cases h
  rename_i te hte
  split at h
  · cases h
  rename_i rows hrows
  injection h with h
  subst h
  refine ⟨?_, rfl⟩
  have h1 := (mapM_ok_inv hrows).1
  have h2 : te.length = ns + 1 := by
    unfold teLine at hte
    split_ifs at hte with h0
    · injection hte with hte
      rw [← hte]; simp [h0, discreteSegment_length]
    · split at hte
      · injection hte with hte
        rw [← hte]; simp [discreteSegment_length]
      · cases hte
  simp [NdMesh.ofRows, h1, h2, discreteSegment_length]

/-- Every `SailGeometry` object has `nc * ns` panels on each side of the water. -/
theorem sailGeometry_lengths {s : SailInput} {g : SailGeom} (h : sailGeometry s = .ok g) :
    g.panelsAbove.length = s.nc * s.ns ∧ g.panelsUnder.length = s.nc * s.ns ∧
    g.panelsAboveZero.length = s.nc * s.ns ∧ g.panelsUnderZero.length = s.nc * s.ns ∧
    g.name = s.name := by
  unfold sailGeometry at h
  simp only [bind, Except.bind, pure, Except.pure] at h
  split at h
  · cases h
  rename_i m hm
  split at h
  · cases h
  rename_i mu hmu
  split at h
  · cases h
  rename_i t ht
  obtain ⟨a0, a1⟩ := makeAirfoilMesh_shape hm
  obtain ⟨b0, b1⟩ := makeAirfoilMesh_shape hmu
  split_ifs at h with h1 h2
  injection h with h
  subst h
  refine ⟨?_, ?_, ?_, ?_, rfl⟩ <;>
  simp [makePanels_length, NdMesh.swapaxes, NdMesh.reshape, a0, a1, b0, b1]

theorem sailJib_lengths {spline : SplineFn} {s : SolverConf} {rig : RigConf} {jib : Option SailConf}
    {csys : Csys} {g : SailGeom} (h : sailJib spline s rig jib csys = .ok g) :
    g.panelsAbove.length = s.nc * s.ns ∧ g.panelsUnder.length = s.nc * s.ns ∧
    g.panelsAboveZero.length = s.nc * s.ns ∧ g.panelsUnderZero.length = s.nc * s.ns := by
  unfold sailJib SailFactory.makeJib at h
  simp only [bind, Except.bind] at h
  repeat' split at h
  all_goals first
    | (cases h; done)
    | (obtain ⟨h1, h2, h3, h4, -⟩ := sailGeometry_lengths h
       exact ⟨h1, h2, h3, h4⟩)

theorem sailMain_lengths {spline : SplineFn} {s : SolverConf} {rig : RigConf} {main : Option SailConf}
    {csys : Csys} {g : SailGeom} (h : sailMain spline s rig main csys = .ok g) :
    g.panelsAbove.length = s.nc * s.ns ∧ g.panelsUnder.length = s.nc * s.ns ∧
    g.panelsAboveZero.length = s.nc * s.ns ∧ g.panelsUnderZero.length = s.nc * s.ns := by
  unfold sailMain SailFactory.makeMainSail at h
  simp only [bind, Except.bind] at h
  repeat' split at h
  all_goals first
    | (cases h; done)
    | (obtain ⟨h1, h2, h3, h4, -⟩ := sailGeometry_lengths h
       exact ⟨h1, h2, h3, h4⟩)

/-- What every sail set of the runner looks like: one or two sails with different names, all with the
same number of panels on each side. -/
theorem sailSetOf_shape {spline : SplineFn} {s : SolverConf} {rig : RigConf} {main jib : Option SailConf}
    {csys : Csys} {set : SailSet} (h : sailSetOf spline s rig main jib csys = .ok set) :
    ((rig.sailsDef = "jib" ∧ set.sails.map SailGeom.name = ["jib"]) ∨
     (rig.sailsDef = "main" ∧ set.sails.map SailGeom.name = ["main_sail"]) ∨
     (rig.sailsDef = "jib_and_main" ∧ set.sails.map SailGeom.name = ["jib", "main_sail"])) ∧
    (∀ g ∈ set.sails, g.panelsAbove.length = s.nc * s.ns ∧ g.panelsUnder.length = s.nc * s.ns ∧
      g.panelsAboveZero.length = s.nc * s.ns ∧ g.panelsUnderZero.length = s.nc * s.ns) ∧
    set.panels.length = 2 * (set.sails.length * (s.nc * s.ns)) ∧
    set.zeroMesh.length = set.panels.length := by
  have hs := sailSetOf_sails h
  have key : ((rig.sailsDef = "jib" ∧ set.sails.map SailGeom.name = ["jib"]) ∨
     (rig.sailsDef = "main" ∧ set.sails.map SailGeom.name = ["main_sail"]) ∨
     (rig.sailsDef = "jib_and_main" ∧ set.sails.map SailGeom.name = ["jib", "main_sail"])) ∧
    (∀ g ∈ set.sails, g.panelsAbove.length = s.nc * s.ns ∧ g.panelsUnder.length = s.nc * s.ns ∧
      g.panelsAboveZero.length = s.nc * s.ns ∧ g.panelsUnderZero.length = s.nc * s.ns) := by
    have nj := @sailJib_name spline s rig jib csys
    have nm := @sailMain_name spline s rig main csys
    have lj := @sailJib_lengths spline s rig jib csys
    have lm := @sailMain_lengths spline s rig main csys
    unfold sailSetOf selectedJib selectedMain at h
    by_cases d1 : rig.sailsDef = "jib"
    · simp only [d1] at h
      cases hj : sailJib spline s rig jib csys with
      | error e => simp [hj, bind, Except.bind, Except.map] at h
      | ok g =>
        simp [hj, bind, Except.bind, Except.map, sailSet] at h
        rw [← h]
        simp only [List.map_cons, List.map_nil, List.mem_singleton, forall_eq]
        exact ⟨Or.inl ⟨d1, by rw [nj hj]⟩, lj hj⟩
    · by_cases d2 : rig.sailsDef = "main"
      · simp only [d2] at h
        cases hm : sailMain spline s rig main csys with
        | error e => simp [hm, bind, Except.bind, Except.map] at h
        | ok g =>
          simp [hm, bind, Except.bind, Except.map, sailSet] at h
          rw [← h]
          simp only [List.map_cons, List.map_nil, List.mem_singleton, forall_eq]
          exact ⟨Or.inr (Or.inl ⟨d2, by rw [nm hm]⟩), lm hm⟩
      · by_cases d3 : rig.sailsDef = "jib_and_main"
        · simp only [d3] at h
          cases hj : sailJib spline s rig jib csys with
          | error e => simp [hj, bind, Except.bind, Except.map] at h
          | ok g =>
            cases hm : sailMain spline s rig main csys with
            | error e => simp [hj, hm, bind, Except.bind, Except.map] at h
            | ok g' =>
              simp [hj, hm, bind, Except.bind, Except.map, sailSet] at h
              rw [← h]
              refine ⟨Or.inr (Or.inr ⟨d3, by simp [nj hj, nm hm]⟩), ?_⟩
              intro x hx
              simp at hx
              rcases hx with rfl | rfl
              · exact lj hj
              · exact lm hm
        · simp [d1, d2, d3, sailSet, bind, Except.bind] at h
  refine ⟨key.1, key.2, ?_⟩
  have fl : ∀ f : SailGeom → List Panel, (∀ g ∈ set.sails, (f g).length = s.nc * s.ns) →
      (set.sails.map f).flatten.length = set.sails.length * (s.nc * s.ns) := by
    intro f hf
    rw [length_flatten_eq (n := s.nc * s.ns) _ (by
      intro b hb
      obtain ⟨g, hg, rfl⟩ := List.mem_map.1 hb
      exact hf g hg), List.length_map]
  unfold sailSet at hs
  split_ifs at hs
  injection hs with hs
  have e1 : set.panels = (set.sails.map SailGeom.panelsAbove).flatten ++
    (set.sails.map SailGeom.panelsUnder).flatten := by rw [← hs]
  have e2 : set.zeroMesh = (set.sails.map SailGeom.panelsAboveZero).flatten ++
    (set.sails.map SailGeom.panelsUnderZero).flatten := by rw [← hs]
  rw [e1, e2, List.length_append, List.length_append, fl _ fun g hg => (key.2 g hg).1,
    fl _ fun g hg => (key.2 g hg).2.1, fl _ fun g hg => (key.2 g hg).2.2.1,
    fl _ fun g hg => (key.2 g hg).2.2.2]
  exact ⟨by ring, rfl⟩

/-! ## Steps -/

theorem emit_length_le (steps : List (Py Effect)) : (emit steps).1.length ≤ steps.length := by
  induction steps with
  | nil => simp [emit]
  | cons s rest ih => cases s <;> simp [emit, ih]

theorem emit_kinds {κ : Type} (kind : Effect → κ) (steps : List (Py Effect)) (kinds : List κ)
    (h : List.Forall₂ (fun s k => ∀ e, s = .ok e → kind e = k) steps kinds) :
    (emit steps).1.map kind = kinds.take (emit steps).1.length ∧
    ((emit steps).2 = .ok () ↔ (emit steps).1.length = steps.length) := by
  induction h with
  | nil => simp [emit]
  | @cons s k steps kinds hs _ ih =>
    cases s with
    | error e => simp [emit]
    | ok e => simp [emit, hs e rfl, ih.1, ih.2]

theorem emit_all_ok (es : List Effect) : emit (es.map .ok) = (es, .ok ()) := by
  induction es with
  | nil => rfl
  | cons e es ih => simp [emit, ih]

/-- The parts of a successful preparation. -/
theorem prepare_ok {spline : SplineFn} {c : Config} {p : Prepared} (h : prepare spline c = .ok p) :
    ∃ main jib base, mainSailInit c.main = .ok main ∧ jibSailInit c.jib = .ok jib ∧
      csysInit c.heelDeg c.leewayDeg c.vRef = .ok p.csys ∧ windPostInit c.wind = .ok () ∧
      sailPostInit c.rig (some main) (some jib) = .ok () ∧
      sailSetOf spline c.solver c.rig (some main) (some jib) p.csys = .ok p.set ∧
      c.rig.base = some base ∧ hullGeometry c.rig.sheer base p.csys c.clrUpright = .ok p.hull ∧
      vlm (c.vlmInput p.set (windGetProfile c.wind)) = .ok p.vlm ∧
      ∃ res, inviscidFlow p.set.sails p.csys p.vlm.flowArrays = .ok res ∧
        p.flow = (FlowObject.new res).estimateKeel p.hull.clr := by
  unfold prepare prepareGeometry at h
  simp only [bind, Except.bind] at h
  split at h
  · cases h
  rename_i g hg
  split at hg
  · cases hg
  rename_i main hmain
  split at hg
  · cases hg
  rename_i jib hjib
  split at hg
  · cases hg
  rename_i csys hcsys
  split at hg
  · cases hg
  rename_i hwind
  split at hg
  · cases hg
  rename_i hsail
  split at hg
  · cases hg
  rename_i set hset
  split at hg
  · cases hg
  rename_i base hbase
  split at hg
  · cases hg
  rename_i hull hhull
  injection hg with hg
  subst hg
  split at h
  · cases h
  rename_i r hr
  split at h
  · cases h
  rename_i res hres
  injection h with h
  subst h
  refine ⟨main, jib, base, hmain, hjib, hcsys, hwind, hsail, hset, ?_, hhull, hr, res, hres, rfl⟩
  unfold need at hbase
  split at hbase
  · injection hbase with e; rename_i h; rw [h, e]
  · cases hbase

/-! ## Numbers or `nan` -/

/-- A result or a `nan`, no exception. -/
def OkOrNan {α : Type} (x : Py α) : Prop := (∃ a, x = .ok a) ∨ x = .error .nonFinite

theorem OkOrNan.ok {α : Type} (a : α) : OkOrNan (.ok a : Py α) := Or.inl ⟨a, rfl⟩

theorem OkOrNan.bind {α β : Type} {x : Py α} {f : α → Py β} (h : OkOrNan x)
    (hf : ∀ a, x = .ok a → OkOrNan (f a)) : OkOrNan (x >>= f) := by
  rcases h with ⟨a, rfl⟩ | rfl
  · exact hf a rfl
  · exact Or.inr rfl

theorem OkOrNan.mapM {α β : Type} {f : α → Py β} : ∀ {l : List α}, (∀ a ∈ l, OkOrNan (f a)) →
    OkOrNan (l.mapM f)
  | [], _ => by rw [List.mapM_nil]; exact .ok _
  | a :: l, h => by
    rw [List.mapM_cons]
    refine OkOrNan.bind (h a (by simp)) fun b _ => OkOrNan.bind
      (OkOrNan.mapM fun x hx => h x (by simp [hx])) fun c _ => ?_
    exact .ok _

theorem nanAsNone_ok {α : Type} {x : Py α} (h : OkOrNan x) : ∃ o, nanAsNone x = .ok o := by
  rcases h with ⟨a, rfl⟩ | rfl
  · exact ⟨_, rfl⟩
  · exact ⟨_, rfl⟩

theorem arraySplit_okOf {α : Type} {xs : List α} {g n : ℕ} (hg : 0 < g) (hx : xs.length = g * n) :
    ∃ cs, arraySplit xs g = .ok cs ∧ (∀ b ∈ cs, b.length = n) ∧ cs.length = g := by
  cases h : arraySplit xs g with
  | error e => simp [arraySplit, hg.ne'] at h
  | ok cs => exact ⟨cs, rfl, (arraySplit_ok hx h).2⟩

theorem idx_lt {α : Type} {xs : List α} {i : ℕ} (h : i < xs.length) : idx xs i = .ok xs[i] := by
  unfold idx; rw [List.getElem?_eq_getElem h]

theorem cpToGirths_okOrNan {cps : List V3} (h : cps ≠ []) (t : V3) : OkOrNan (cpToGirths cps t) := by
  cases cps with
  | nil => exact absurd rfl h
  | cons p ps =>
    unfold cpToGirths pyMax
    simp only [List.map_cons, bind, Except.bind]
    split_ifs
    · exact Or.inr rfl
    · exact Or.inl ⟨_, rfl⟩

theorem cpToGirths_length {cps : List V3} {t : V3} {g : List ℝ} (h : cpToGirths cps t = .ok g) :
    g.length = cps.length := by
  unfold cpToGirths at h
  simp only [bind, Except.bind] at h
  split at h
  · cases h
  split_ifs at h
  injection h with h
  rw [← h, List.length_map]

theorem cpGirthsAll_okOrNan {sails : List SailGeom} {m : ℕ} (hn : sails ≠ []) (hm : 0 < m) (c : Csys)
    {cps : List V3} (hl : cps.length = 2 * (sails.length * m)) :
    OkOrNan (cpGirthsAll sails c cps) ∧ ∀ g, cpGirthsAll sails c cps = .ok g →
      g.1.length = 2 * (sails.length * m) ∧ g.2.length = 2 * (sails.length * m) := by
  have hpos : 0 < sails.length := List.length_pos_iff.2 hn
  obtain ⟨cs, hcs, hb, hcl⟩ := arraySplit_okOf (xs := cps) (g := 2 * sails.length) (n := m) (by omega)
    (by rw [hl]; ring)
  obtain ⟨f, hf⟩ : ∃ f : ℕ → Py (List ℝ × List V3), f = fun i => (do
      let a ← idx cs i
      let b ← idx cs (i + sails.length)
      let s ← idx sails i
      let straight := cpStraightYacht (a ++ b) c
      let g ← cpToGirths straight s.tackMounting
      .ok (g, straight)) := ⟨_, rfl⟩
  have hbody : ∀ i, i < sails.length → ∃ straight t, straight.length = 2 * m ∧
      f i = (cpToGirths straight t >>= fun g => .ok (g, straight)) := by
    intro i hi
    have h1 : i < cs.length := by omega
    have h2 : i + sails.length < cs.length := by omega
    refine ⟨cpStraightYacht (cs[i] ++ cs[i + sails.length]) c, sails[i].tackMounting, ?_, ?_⟩
    · simp only [cpStraightYacht, List.length_map, List.length_append]
      rw [hb _ (List.getElem_mem h1), hb _ (List.getElem_mem h2)]; ring
    · rw [hf]
      simp only [idx_lt h1, idx_lt h2, idx_lt hi, bind, Except.bind]
  have e : cpGirthsAll sails c cps = ((List.range sails.length).mapM f >>= fun rows =>
      .ok ((rows.map (·.1)).flatten, (rows.map (·.2)).flatten)) := by
    unfold cpGirthsAll
    simp only [hcs, hf]
    rfl
  rw [e]
  constructor
  · refine OkOrNan.bind (OkOrNan.mapM fun i hi => ?_) fun _ _ => .ok _
    obtain ⟨st, t, hst, hfi⟩ := hbody i (List.mem_range.1 hi)
    rw [hfi]
    refine OkOrNan.bind (cpToGirths_okOrNan ?_ t) fun _ _ => .ok _
    intro h0
    rw [h0] at hst; simp at hst; omega
  · intro g hg
    cases hrows : (List.range sails.length).mapM f with
    | error e => rw [hrows] at hg; cases hg
    | ok rows =>
      rw [hrows] at hg
      simp only [bind, Except.bind] at hg
      injection hg with hg
      obtain ⟨hrl, hri⟩ := mapM_ok_inv hrows
      rw [List.length_range] at hrl
      have hrow : ∀ r ∈ rows, r.1.length = 2 * m ∧ r.2.length = 2 * m := by
        intro r hr
        obtain ⟨i, hi, rfl⟩ := List.getElem_of_mem hr
        have hi' : i < sails.length := by omega
        obtain ⟨st, t, hst, hfi⟩ := hbody i hi'
        obtain ⟨b, hb1, hb2⟩ := hri i (by simpa using hi')
        rw [List.getElem?_eq_getElem hi] at hb1
        injection hb1 with hb1
        rw [List.getElem_range, hfi] at hb2
        cases hg : cpToGirths st t with
        | error e => rw [hg] at hb2; cases hb2
        | ok g =>
          rw [hg] at hb2
          injection hb2 with hb2
          rw [hb1, ← hb2]
          exact ⟨by rw [cpToGirths_length hg, hst], hst⟩
      subst hg
      constructor
      · show (rows.map (·.1)).flatten.length = _
        rw [length_flatten_eq (n := 2 * m) _ (by
          intro b hb
          obtain ⟨r, hr, rfl⟩ := List.mem_map.1 hb
          exact (hrow r hr).1), List.length_map, hrl]; ring
      · show (rows.map (·.2)).flatten.length = _
        rw [length_flatten_eq (n := 2 * m) _ (by
          intro b hb
          obtain ⟨r, hr, rfl⟩ := List.mem_map.1 hb
          exact (hrow r hr).2), List.length_map, hrl]; ring

/-! ## Where an output comes from -/

theorem mem_emit {steps : List (Py Effect)} {e : Effect} (h : e ∈ (emit steps).1) : .ok e ∈ steps := by
  induction steps with
  | nil => simp [emit] at h
  | cons s steps ih =>
    cases s with
    | error err => simp [emit] at h
    | ok a =>
      simp only [emit, List.mem_cons] at h
      rcases h with rfl | h
      · exact List.mem_cons_self
      · exact List.mem_cons_of_mem _ (ih h)

theorem mem_run {spline : SplineFn} {c : Config} {e : Effect} (h : e ∈ (run spline c).1) :
    ∃ p, prepare spline c = .ok p ∧ .ok e ∈ outputSteps c p := by
  unfold run at h
  cases hp : prepare spline c with
  | error err => rw [hp] at h; simp at h
  | ok p => rw [hp] at h; exact ⟨p, rfl, mem_emit h⟩

theorem nanAsNone_some {α : Type} {x : Py α} {a : α} (h : nanAsNone x = .ok (some a)) : x = .ok a := by
  cases x with
  | ok b => simpa [nanAsNone] using h
  | error e => cases e <;> simp [nanAsNone] at h

theorem sectionPlotStep_kind {d : Py CoeffPlotData} {x : CoeffPlotData → List (List ℝ)} {name : String}
    {colors : List String} {e : Effect} (h : sectionPlotStep d x name colors = .ok e) :
    ∃ f, e = .sectionPlot name f ∧ ∀ F, f = some F → ∃ D, d = .ok D ∧ plotSectionCoeff (x D) D.meanCpZ name colors = .ok F := by
  unfold sectionPlotStep at h
  cases d with
  | error err =>
    cases err <;> simp [nanAsNone, bind, Except.bind] at h
    exact ⟨none, h.symm, by simp⟩
  | ok D =>
    simp only [nanAsNone, bind, Except.bind] at h
    cases hf : plotSectionCoeff (x D) D.meanCpZ name colors with
    | error e => rw [hf] at h; cases h
    | ok f =>
      rw [hf] at h; cases h
      exact ⟨some f, rfl, fun F hF => by cases hF; exact ⟨D, rfl, hf⟩⟩

theorem run_workbook {spline : SplineFn} {c : Config} {t : SavedResults}
    (h : .workbook (some t) ∈ (run spline c).1) :
    ∃ p, prepare spline c = .ok p ∧ saveResults p.vlm p.csys p.flow p.set.sails p.csys = .ok t := by
  obtain ⟨p, hp, hm⟩ := mem_run h
  refine ⟨p, hp, ?_⟩
  unfold outputSteps at hm
  simp only [List.mem_cons, List.not_mem_nil, or_false] at hm
  rcases hm with h1 | h1 | h1 | h1 | h1 | h1
  · cases hx : nanAsNone (saveResults p.vlm p.csys p.flow p.set.sails p.csys) with
    | error e => rw [hx] at h1; cases h1
    | ok o => rw [hx] at h1; cases h1; exact nanAsNone_some hx
  · cases h1
  · cases hx : nanAsNone (displayScene p.vlm p.flow.res p.hull false false) with
    | error e => rw [hx] at h1; cases h1
    | ok o => rw [hx] at h1; cases h1
  · cases hx : plotCp p.set.zeroMesh p.vlm.out.pCoeffs with
    | error e => rw [hx] at h1; cases h1
    | ok o => rw [hx] at h1; cases h1
  · obtain ⟨f, hf, -⟩ := sectionPlotStep_kind h1.symm
    cases hf
  · obtain ⟨f, hf, -⟩ := sectionPlotStep_kind h1.symm
    cases hf

theorem run_picture {spline : SplineFn} {c : Config} {s : Scene}
    (h : .picture (some s) ∈ (run spline c).1) :
    ∃ p, prepare spline c = .ok p ∧ displayScene p.vlm p.flow.res p.hull false false = .ok s := by
  obtain ⟨p, hp, hm⟩ := mem_run h
  refine ⟨p, hp, ?_⟩
  unfold outputSteps at hm
  simp only [List.mem_cons, List.not_mem_nil, or_false] at hm
  rcases hm with h1 | h1 | h1 | h1 | h1 | h1
  · cases hx : nanAsNone (saveResults p.vlm p.csys p.flow p.set.sails p.csys) with
    | error e => rw [hx] at h1; cases h1
    | ok o => rw [hx] at h1; cases h1
  · cases h1
  · cases hx : nanAsNone (displayScene p.vlm p.flow.res p.hull false false) with
    | error e => rw [hx] at h1; cases h1
    | ok o => rw [hx] at h1; cases h1; exact nanAsNone_some hx
  · cases hx : plotCp p.set.zeroMesh p.vlm.out.pCoeffs with
    | error e => rw [hx] at h1; cases h1
    | ok o => rw [hx] at h1; cases h1
  · obtain ⟨f, hf, -⟩ := sectionPlotStep_kind h1.symm
    cases hf
  · obtain ⟨f, hf, -⟩ := sectionPlotStep_kind h1.symm
    cases hf

theorem run_sectionPlot {spline : SplineFn} {c : Config} {name : String} {F : Figure}
    (h : .sectionPlot name (some F) ∈ (run spline c).1) :
    ∃ p D, prepare spline c = .ok p ∧ coeffPlotData p.vlm c.solver.nc c.solver.ns = .ok D ∧
      ((name = "lift" ∧ plotSectionCoeff D.drag D.meanCpZ "lift" ["blue", "green"] = .ok F) ∨
       (name = "drag" ∧ plotSectionCoeff D.lift D.meanCpZ "drag" ["teal", "purple"] = .ok F)) := by
  obtain ⟨p, hp, hm⟩ := mem_run h
  unfold outputSteps at hm
  simp only [List.mem_cons, List.not_mem_nil, or_false] at hm
  rcases hm with h1 | h1 | h1 | h1 | h1 | h1
  · cases hx : nanAsNone (saveResults p.vlm p.csys p.flow p.set.sails p.csys) with
    | error e => rw [hx] at h1; cases h1
    | ok o => rw [hx] at h1; cases h1
  · cases h1
  · cases hx : nanAsNone (displayScene p.vlm p.flow.res p.hull false false) with
    | error e => rw [hx] at h1; cases h1
    | ok o => rw [hx] at h1; cases h1
  · cases hx : plotCp p.set.zeroMesh p.vlm.out.pCoeffs with
    | error e => rw [hx] at h1; cases h1
    | ok o => rw [hx] at h1; cases h1
  · obtain ⟨f, hf, hF⟩ := sectionPlotStep_kind h1.symm
    cases hf
    obtain ⟨D, hD, hP⟩ := hF F rfl
    exact ⟨p, D, hp, hD, Or.inl ⟨rfl, hP⟩⟩
  · obtain ⟨f, hf, hF⟩ := sectionPlotStep_kind h1.symm
    cases hf
    obtain ⟨D, hD, hP⟩ := hF F rfl
    exact ⟨p, D, hp, hD, Or.inr ⟨rfl, hP⟩⟩

end PySailing
