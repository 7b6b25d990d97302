import Verif.Model.Solver
import Verif.Model.Sail

/-!
# `results/inviscid_flow.py`, `results/save_utils.py`, moments of `solver/forces.py`,
`solver/additional_functions.py`
-/

namespace PySailing

/-! ## Moments -/

/-- One row of `calc_moment_arm_in_shifted_csys`, `solver/forces.py:11-17`. -/
noncomputable def momentArm (v p : V3) : V3 :=
  open Classical in
  ⟨p.x - v.x, p.y - v.y, if p.z > 0 then p.z - v.z else p.z + v.z⟩

/-- `calc_moment_arm_in_shifted_csys(cp_points, v_from_old_2_new_csys)`, `solver/forces.py:7-19`. -/
noncomputable def calcMomentArm (cps : List V3) (v : V3) : List V3 := cps.map (momentArm v)

/-- `calc_moments(cp_points, forces)`, `solver/forces.py:21-26`: row by row, `np.cross` raises
`ValueError` for arrays of different length.  Simplification: no broadcasting of one-row arrays. -/
def calcMoments (r F : List V3) : Py (List V3) :=
  if r.length = F.length then .ok (List.zipWith V3.cross r F) else .error .valueError

open Classical in
/-- `determine_vector_from_its_dot_and_cross_product(F, r_dot_F, r_cross_F)`,
`solver/forces.py:28-38`. -/
noncomputable def determineVector (F : V3) (rDotF : ℝ) (rCrossF : V3) : Py V3 :=
  if F.dot F = 0 then .error .nonFinite
  else .ok ((1 / F.dot F) • (V3.cross F rCrossF + rDotF • F))

/-! ## Dictionaries and tables -/

/-- A Python dictionary with string keys and float values; the order of the keys is not modelled
(`results/inviscid_flow.py:60`, `137`). -/
abbrev PyDict := String → Option ℝ

namespace PyDict

/-- `{}`, `results/inviscid_flow.py:60`. -/
def empty : PyDict := fun _ => none

/-- `d[key] = value`, `results/inviscid_flow.py:75`. -/
def set (d : PyDict) (key : String) (value : ℝ) : PyDict := Function.update d key (some value)

/-- `d.update(e)`, `results/inviscid_flow.py:175`, `177`. -/
def update (d e : PyDict) : PyDict := fun k => (e k).or (d k)

/-- Three assignments `d[key.x]`, `d[key.y]`, `d[key.z]`, e.g. `results/inviscid_flow.py:75-77`. -/
def setVec (d : PyDict) (key : String) (v : V3) : PyDict :=
  ((d.set (key ++ ".x") v.x).set (key ++ ".y") v.y).set (key ++ ".z") v.z

end PyDict

/-- A cell of a `DataFrame`, `results/save_utils.py:30-34`. -/
inductive Cell where
  | num (x : ℝ)
  | nan
  | text (s : String)

/-- A number that may be `nan`, e.g. `results/inviscid_flow.py:27`. -/
def Cell.ofPy (r : Py ℝ) : Cell :=
  match r with
  | .ok x => .num x
  | .error _ => .nan

/-- A `DataFrame` as a list of named columns, `results/save_utils.py:48`.  Simplification: the order
of the columns, which pandas changes for frames made from dictionaries, has no meaning here. -/
abbrev Frame := List (String × List Cell)

/-- The cell of column `name` in row `r`, as a reader of the sheet sees it
(`results/save_utils.py:55`). -/
def Frame.cell (t : Frame) (name : String) (r : ℕ) : Option Cell :=
  (t.find? fun c => c.1 = name).bind fun c => c.2[r]?

/-- `np.array_split(df, 2)[0]`, `results/save_utils.py:24-28`: the first half of the rows, rounded
up. -/
def Frame.firstHalf (t : Frame) : Frame := t.map fun c => (c.1, c.2.take ((c.2.length + 1) / 2))

/-- `pd.concat(list_of_df, axis=1, sort=False)`, `results/save_utils.py:48`: all frames have a range
index, shorter ones are filled with `nan`. -/
def concatFrames (ts : List Frame) : Frame :=
  let cols := ts.flatten
  let n := (cols.map fun c => c.2.length).foldl max 0
  cols.map fun c => (c.1, c.2 ++ List.replicate (n - c.2.length) .nan)

/-! ## `InviscidFlowResults` -/

/-- The arrays of a `Vlm` object that `InviscidFlowResults.__init__` reads,
`results/inviscid_flow.py:20-30`. -/
structure FlowArrays where
  gamma : List ℝ
  pressure : List ℝ
  vIndCp : List V3
  vFsCp : List V3
  force : List V3
  cp : List V3

/-- These arrays of a `Vlm` object, `solver/vlm.py:33-50`. -/
def Vlm.flowArrays (r : Vlm) : FlowArrays where
  gamma := r.out.gamma
  pressure := r.out.pressure
  vIndCp := r.out.vIndCp
  vFsCp := r.out.vFsCp
  force := r.out.force
  cp := r.vars.map PanelVars.cp

open Classical in
/-- `np.arctan(y / x)` of numpy floats, `results/inviscid_flow.py:27`: division by zero gives `±inf`
(arctangent `±π/2`) or `nan`.  Simplification: no signed zeros. -/
noncomputable def arctanRatio (y x : ℝ) : Py ℝ :=
  if x = 0 then
    if y = 0 then .error .nonFinite else .ok (if 0 < y then Real.pi / 2 else -(Real.pi / 2))
  else .ok (Real.arctan (y / x))

/-- The attributes of an `InviscidFlowResults` object set by the constructor,
`results/inviscid_flow.py:15-102`. -/
structure FlowResults where
  csys : Csys
  gamma : List ℝ
  pressure : List ℝ
  vInd : List V3
  vIndLength : List ℝ
  vFs : List V3
  vFsLength : List ℝ
  awa : List (Py ℝ)
  force : List V3
  forceAbove : List V3
  forceTotal : V3
  dyn : PyDict
  moment : List V3
  momentTotal : V3
  centreOfEffort : Py V3
  forceCl : List V3
  forceClTotal : V3
  momentCl : List V3
  momentClTotal : V3

/-- The body of the loop over the sails, `results/inviscid_flow.py:71-83`. -/
def flowSail (name : String) (F r : List V3) (d : PyDict) : Py PyDict := do
  let d1 := d.setVec ("F_" ++ name ++ "_total_COG") F.sum
  let M ← calcMoments r F
  .ok (d1.setVec ("M_" ++ name ++ "_total_COG") M.sum)

/-- The loop over the sails, `results/inviscid_flow.py:69-83`; `chunks` are the forces and arms of
the remaining sails. -/
def flowSails : List SailGeom → List (List V3) → List (List V3) → PyDict → Py PyDict
  | [], _, _, d => .ok d
  | s :: ss, F :: Fs, r :: rs, d => do
    let d' ← flowSail s.name F r d
    flowSails ss Fs rs d'
  | _ :: _, _, _, _ => .error .indexError

/-- `InviscidFlowResults.__init__`, `results/inviscid_flow.py:15-102`. -/
noncomputable def inviscidFlow (sails : List SailGeom) (csys : Csys) (a : FlowArrays) :
    Py FlowResults := do
  let r := calcMomentArm a.cp csys.vRef
  let half := a.force.length / 2
  let Fs ← arraySplit (a.force.take half) sails.length
  let rs ← arraySplit (r.take half) sails.length
  let dyn ← flowSails sails Fs rs PyDict.empty
  let M ← calcMoments r a.force
  let rDotF := List.zipWith V3.dot r a.force
  .ok {
    csys := csys
    gamma := a.gamma
    pressure := a.pressure
    vInd := a.vIndCp
    vIndLength := a.vIndCp.map V3.norm
    vFs := a.vFsCp
    vFsLength := a.vFsCp.map V3.norm
    awa := a.vFsCp.map fun v => arctanRatio v.y v.x
    force := a.force
    forceAbove := (extractAboveWater a.force).1
    forceTotal := (extractAboveWater a.force).2
    dyn := dyn
    moment := M
    momentTotal := (extractAboveWater M).2
    centreOfEffort := determineVector (extractAboveWater a.force).2 (extractAboveWater rDotF).2
      (extractAboveWater M).2
    forceCl := csys.fromXyzToCenterline a.force
    forceClTotal := (extractAboveWater (csys.fromXyzToCenterline a.force)).2
    momentCl := csys.fromXyzToCenterline M
    momentClTotal := (extractAboveWater (csys.fromXyzToCenterline M)).2 }

/-- An `InviscidFlowResults` object during its life: the keel attributes exist after the first call of
`estimate_heeling_moment_from_keel`, `results/inviscid_flow.py:104-106`. -/
structure FlowObject where
  res : FlowResults
  keel : Option (V3 × V3)

/-- The object after construction, `results/inviscid_flow.py:15-102`. -/
def FlowObject.new (res : FlowResults) : FlowObject := ⟨res, none⟩

/-- `estimate_heeling_moment_from_keel(underwater_centre_of_effort_xyz)`,
`results/inviscid_flow.py:104-106`. -/
noncomputable def FlowObject.estimateKeel (o : FlowObject) (clr : V3) : FlowObject :=
  let m := V3.cross clr (-o.res.forceTotal)
  ⟨o.res, some (m, o.res.csys.leeway.mulVec m)⟩

/-- Four rows for a moment in the centre line system, `results/inviscid_flow.py:147-150`,
`158-161`, `165-172`. -/
def PyDict.setMomentCow (d : PyDict) (key : String) (m : V3) : PyDict :=
  (((d.set (key ++ ".x (heel)") m.x).set (key ++ ".y (pitch)") m.y).set
    (key ++ ".z (yaw)") m.z).set (key ++ ".z (yaw - JG sign)") (-m.z)

/-- `to_df_integral()`, `results/inviscid_flow.py:136-181`: the sheet `Integrals` as a map from the
column `Quantity` to the column `Value`. -/
noncomputable def FlowObject.toDfIntegral (o : FlowObject) : PyDict :=
  let r := o.res
  let d := (((PyDict.empty.setVec "F_sails_total_COG" r.forceTotal).setVec "F_sails_total_COW"
    r.forceClTotal).setVec "M_sails_total_COG" r.momentTotal).setMomentCow "M_sails_total_COW"
    r.momentClTotal
  let d1 := match o.keel with
    | none => d
    | some (mKeel, mKeelCl) => d.update
      ((((PyDict.empty.setVec "M_keel_total_COG" mKeel).setMomentCow "M_keel_total_COW" mKeelCl).setVec
        "M_total_COG" (r.momentTotal + mKeel)).setMomentCow "M_total_COW" (r.momentClTotal + mKeelCl))
  d1.update r.dyn

/-- Three columns for an array of vectors, e.g. `results/inviscid_flow.py:110-112`. -/
def vecColumns (key : String) (vs : List V3) : Frame :=
  [(key ++ ".x", vs.map fun v => .num v.x), (key ++ ".y", vs.map fun v => .num v.y),
    (key ++ ".z", vs.map fun v => .num v.z)]

/-- `__iter__` and `to_df_full()`, `results/inviscid_flow.py:108-134`. -/
noncomputable def FlowResults.toDfFull (r : FlowResults) : Frame :=
  [("Circulation_magnitude", r.gamma.map .num)] ++ vecColumns "V_induced_COG" r.vInd ++
  [("V_induced_length", r.vIndLength.map .num)] ++ vecColumns "V_app_fs_COG" r.vFs ++
  [("V_app_fs_length", r.vFsLength.map .num),
    ("AWA_fs_COG_deg", r.awa.map fun x => .ofPy (x.map rad2deg)),
    ("AWA_fs_COW_deg", r.awa.map fun x => .ofPy (x.map fun y => rad2deg y - r.csys.leewayDeg)),
    ("Pressure", r.pressure.map .num)] ++
  vecColumns "F_sails_COG" r.force ++ vecColumns "M_sails_COG" r.moment ++
  vecColumns "F_sails_COW" r.forceCl

/-- `InletConditions.__iter__` and `to_df_full(csys_transformations)`,
`inlet/inlet_conditions.py:21-43`. -/
noncomputable def Inlet.toDfFull (i : Inlet) (csys : Csys) : Frame :=
  vecColumns "cp_points_COG" i.cpPoints ++ vecColumns "TWS_COG" i.twsAtCp ++
  [("TWS_length", i.twsLength.map .num)] ++ vecColumns "V_app_infs_COG" i.vAppInfs ++
  [("V_app_infs_length", i.vAppInfsLength.map .num), ("AWA_infs_COG_deg", i.awaInfsDeg.map .num),
    ("AWA_infs_COW_deg", i.awaInfsDeg.map fun x => .num (x - csys.leewayDeg))]

/-! ## Girths -/

/-- `max` of a list, `solver/additional_functions.py:61`; `ValueError` for an empty one. -/
noncomputable def pyMax : List ℝ → Py ℝ
  | [] => .error .valueError
  | x :: xs => .ok (xs.foldl max x)

open Classical in
/-- `cp_to_girths(sail_cp_straight_yacht, tack_mounting)`,
`solver/additional_functions.py:51-62`. -/
noncomputable def cpToGirths (cps : List V3) (tack : V3) : Py (List ℝ) := do
  let m ← pyMax (cps.map V3.z)
  if m - tack.z = 0 then .error .nonFinite
  else .ok (cps.map fun p => (p.z - tack.z) / (m - tack.z))

/-- `get_cp_strainght_yacht(cp_points, csys_transformations)`,
`solver/additional_functions.py:41-49`. -/
noncomputable def cpStraightYacht (cps : List V3) (c : Csys) : List V3 :=
  cps.map c.reverseRotationsWithMirror

/-- `get_cp_z_as_girths_all(sail_set, csys_transformations, center_of_pressure)`,
`solver/additional_functions.py:67-96`. -/
noncomputable def cpGirthsAll (sails : List SailGeom) (c : Csys) (cps : List V3) :
    Py (List ℝ × List V3) := do
  let n := sails.length
  let chunks ← arraySplit cps (2 * n)
  let rows ← (List.range n).mapM fun i => do
    let a ← idx chunks i
    let b ← idx chunks (i + n)
    let s ← idx sails i
    let straight := cpStraightYacht (a ++ b) c
    let g ← cpToGirths straight s.tackMounting
    .ok (g, straight)
  .ok ((rows.map (·.1)).flatten, (rows.map (·.2)).flatten)

/-- `xs[::2]`, `solver/additional_functions.py:116`, `results/save_utils.py:21`. -/
def everySecond {α : Type} : List α → List α
  | [] => []
  | [a] => [a]
  | a :: _ :: l => a :: everySecond l

/-- `get_cp_z_as_girths_all_above(cp_z_as_girths_all, sail_set)`,
`solver/additional_functions.py:103-125`. -/
def cpGirthsAbove (girths : List ℝ) (sails : List SailGeom) : Py (List ℝ × List String) := do
  let n := 2 * sails.length
  let parts ← npSplit girths n
  let above := (everySecond parts).flatten
  if sails.length = 0 then .error .zeroDivision
  else
    let rep := above.length / sails.length
    .ok (above, (sails.map fun s => List.replicate rep s.name).flatten)

/-- What `save_results_to_file` returns, `results/save_utils.py:42`. -/
structure SavedResults where
  components : Frame
  integrals : PyDict
  inlet : List (String × ℝ)

/-- `save_results_to_file(myvlm, csys_transformations, inviscid_flow_results, sail_set, ...)`,
`results/save_utils.py:12-42`; `csys0` is `sail_set.sails[0].csys_transformations`.
Simplifications: writing the Excel file is modelled in `Model/Excel.lean`; a division by zero in the
girths is reported as `nonFinite` for the whole table; the wind sheet (line 37), the only part that
can raise for arrays of matching lengths, is therefore evaluated first. -/
noncomputable def saveResults (r : Vlm) (csys : Csys) (o : FlowObject) (sails : List SailGeom)
    (csys0 : Csys) : Py SavedResults := do
  let ic ← windIntegral r.inlet.winds csys0
  let g ← cpGirthsAll sails csys (r.vars.map PanelVars.cp)
  let ga ← cpGirthsAbove g.1 sails
  let parts ← arraySplit g.2 (2 * sails.length)
  let above := (everySecond parts).flatten
  let inlet := (r.inlet.toDfFull csys0).firstHalf
  let flow := o.res.toDfFull.firstHalf
  .ok {
    components := concatFrames [flow, inlet, [("cp_points_upright.z", above.map fun p => .num p.z)],
      [("girths", ga.1.map .num)], [("sail_name", ga.2.map .text)]]
    integrals := o.toDfIntegral
    inlet := ic }

end PySailing
