import Mathlib.Analysis.SpecialFunctions.Trigonometric.Basic
import Mathlib.Tactic.Ring
import Mathlib.Tactic.Linarith
import Mathlib.Tactic.FieldSimp

/-!
# Three-vectors over the reals

numpy arrays of shape `(3,)` (`np.array([x, y, z])`) used all over `/repo/pySailingVLM`.
Simplification (trusted base): IEEE-754 doubles are replaced by exact real numbers.
-/

namespace PySailing

/-- A numpy array of shape `(3,)`.  Models every `np.array([x, y, z])` in the code, e.g.
`solver/coefs.py:77-80` (panel corners) or `inlet/winds.py:31-33`. -/
@[ext]
structure V3 where
  x : ℝ
  y : ℝ
  z : ℝ

namespace V3

/-- elementwise `a + b` (numpy), e.g. `solver/velocity.py:160`. -/
instance : Add V3 := ⟨fun a b => ⟨a.x + b.x, a.y + b.y, a.z + b.z⟩⟩
/-- elementwise `a - b` (numpy), e.g. `solver/velocity.py:35-37`. -/
instance : Sub V3 := ⟨fun a b => ⟨a.x - b.x, a.y - b.y, a.z - b.z⟩⟩
/-- elementwise `-a` (numpy), e.g. `results/inviscid_flow.py:105`. -/
instance : Neg V3 := ⟨fun a => ⟨-a.x, -a.y, -a.z⟩⟩
/-- `np.zeros(3)`, e.g. `solver/velocity.py:52`. -/
instance : Zero V3 := ⟨⟨0, 0, 0⟩⟩
/-- scalar times vector (numpy), e.g. `solver/velocity.py:56`. -/
instance : SMul ℝ V3 := ⟨fun s a => ⟨s * a.x, s * a.y, s * a.z⟩⟩
instance : SMul ℕ V3 := ⟨fun s a => ⟨s * a.x, s * a.y, s * a.z⟩⟩
instance : SMul ℤ V3 := ⟨fun s a => ⟨s * a.x, s * a.y, s * a.z⟩⟩
instance : Inhabited V3 := ⟨0⟩

@[simp] theorem add_x (a b : V3) : (a + b).x = a.x + b.x := rfl
@[simp] theorem add_y (a b : V3) : (a + b).y = a.y + b.y := rfl
@[simp] theorem add_z (a b : V3) : (a + b).z = a.z + b.z := rfl
@[simp] theorem sub_x (a b : V3) : (a - b).x = a.x - b.x := rfl
@[simp] theorem sub_y (a b : V3) : (a - b).y = a.y - b.y := rfl
@[simp] theorem sub_z (a b : V3) : (a - b).z = a.z - b.z := rfl
@[simp] theorem neg_x (a : V3) : (-a).x = -a.x := rfl
@[simp] theorem neg_y (a : V3) : (-a).y = -a.y := rfl
@[simp] theorem neg_z (a : V3) : (-a).z = -a.z := rfl
@[simp] theorem zero_x : (0 : V3).x = 0 := rfl
@[simp] theorem zero_y : (0 : V3).y = 0 := rfl
@[simp] theorem zero_z : (0 : V3).z = 0 := rfl
@[simp] theorem smul_x (s : ℝ) (a : V3) : (s • a).x = s * a.x := rfl
@[simp] theorem smul_y (s : ℝ) (a : V3) : (s • a).y = s * a.y := rfl
@[simp] theorem smul_z (s : ℝ) (a : V3) : (s • a).z = s * a.z := rfl

private theorem nsmul_def' (n : ℕ) (a : V3) : n • a = ⟨n * a.x, n * a.y, n * a.z⟩ := rfl
private theorem zsmul_def' (n : ℤ) (a : V3) : n • a = ⟨n * a.x, n * a.y, n * a.z⟩ := rfl

instance : AddCommGroup V3 where
  add_assoc a b c := by ext <;> simp [add_assoc]
  zero_add a := by ext <;> simp
  add_zero a := by ext <;> simp
  add_comm a b := by ext <;> simp [add_comm]
  neg_add_cancel a := by ext <;> simp
  sub_eq_add_neg a b := by ext <;> simp [sub_eq_add_neg]
  nsmul := fun n a => n • a
  nsmul_zero a := by ext <;> simp [nsmul_def']
  nsmul_succ n a := by ext <;> simp [nsmul_def'] <;> ring
  zsmul := fun n a => n • a
  zsmul_zero' a := by ext <;> simp [zsmul_def']
  zsmul_succ' n a := by ext <;> simp [zsmul_def'] <;> ring
  zsmul_neg' n a := by ext <;> simp [zsmul_def'] <;> ring

instance : Module ℝ V3 where
  one_smul a := by ext <;> simp
  mul_smul r s a := by ext <;> simp [mul_assoc]
  smul_zero r := by ext <;> simp
  smul_add r a b := by ext <;> simp [mul_add]
  add_smul r s a := by ext <;> simp [add_mul]
  zero_smul a := by ext <;> simp

/-- `np.dot(a, b)` on two vectors, e.g. `solver/velocity.py:55`. -/
def dot (a b : V3) : ℝ := a.x * b.x + a.y * b.y + a.z * b.z

/-- `np.cross(a, b)`, e.g. `solver/velocity.py:39`. -/
def cross (a b : V3) : V3 :=
  ⟨a.y * b.z - a.z * b.y, a.z * b.x - a.x * b.z, a.x * b.y - a.y * b.x⟩

/-- `np.linalg.norm(a)`, e.g. `solver/velocity.py:17`. -/
noncomputable def norm (a : V3) : ℝ := Real.sqrt (a.dot a)

@[simp] theorem cross_x (a b : V3) : (cross a b).x = a.y * b.z - a.z * b.y := rfl
@[simp] theorem cross_y (a b : V3) : (cross a b).y = a.z * b.x - a.x * b.z := rfl
@[simp] theorem cross_z (a b : V3) : (cross a b).z = a.x * b.y - a.y * b.x := rfl

theorem dot_comm (a b : V3) : a.dot b = b.dot a := by simp [dot]; ring
theorem dot_add_left (a b c : V3) : (a + b).dot c = a.dot c + b.dot c := by simp [dot]; ring
theorem dot_add_right (a b c : V3) : a.dot (b + c) = a.dot b + a.dot c := by simp [dot]; ring
theorem dot_sub_left (a b c : V3) : (a - b).dot c = a.dot c - b.dot c := by simp [dot]; ring
theorem dot_sub_right (a b c : V3) : a.dot (b - c) = a.dot b - a.dot c := by simp [dot]; ring
theorem dot_neg_left (a b : V3) : (-a).dot b = -(a.dot b) := by simp [dot]; ring
theorem dot_neg_right (a b : V3) : a.dot (-b) = -(a.dot b) := by simp [dot]; ring
theorem dot_smul_left (s : ℝ) (a b : V3) : (s • a).dot b = s * a.dot b := by simp [dot]; ring
theorem dot_smul_right (s : ℝ) (a b : V3) : a.dot (s • b) = s * a.dot b := by simp [dot]; ring
@[simp] theorem dot_zero_left (a : V3) : (0 : V3).dot a = 0 := by simp [dot]
@[simp] theorem dot_zero_right (a : V3) : a.dot (0 : V3) = 0 := by simp [dot]
theorem cross_add_left (a b c : V3) : cross (a + b) c = cross a c + cross b c := by
  ext <;> simp <;> ring
theorem cross_add_right (a b c : V3) : cross a (b + c) = cross a b + cross a c := by
  ext <;> simp <;> ring
theorem cross_smul_left (s : ℝ) (a b : V3) : cross (s • a) b = s • cross a b := by
  ext <;> simp <;> ring
theorem cross_smul_right (s : ℝ) (a b : V3) : cross a (s • b) = s • cross a b := by
  ext <;> simp <;> ring
theorem cross_neg_left (a b : V3) : cross (-a) b = -cross a b := by ext <;> simp <;> ring
theorem cross_neg_right (a b : V3) : cross a (-b) = -cross a b := by ext <;> simp <;> ring
theorem cross_anticomm (a b : V3) : cross a b = -cross b a := by ext <;> simp <;> ring
@[simp] theorem cross_self (a : V3) : cross a a = 0 := by ext <;> simp <;> ring
@[simp] theorem cross_zero_left (a : V3) : cross 0 a = 0 := by ext <;> simp
@[simp] theorem cross_zero_right (a : V3) : cross a 0 = 0 := by ext <;> simp
theorem dot_cross_left (a b : V3) : (cross a b).dot a = 0 := by simp [dot]; ring
theorem dot_cross_right (a b : V3) : (cross a b).dot b = 0 := by simp [dot]; ring

theorem dot_self_nonneg (a : V3) : 0 ≤ a.dot a := by
  simp only [dot]; nlinarith [mul_self_nonneg a.x, mul_self_nonneg a.y, mul_self_nonneg a.z]

theorem dot_self_eq_zero {a : V3} : a.dot a = 0 ↔ a = 0 := by
  constructor
  · intro h
    simp only [dot] at h
    have hx : a.x * a.x = 0 := by
      nlinarith [mul_self_nonneg a.x, mul_self_nonneg a.y, mul_self_nonneg a.z]
    have hy : a.y * a.y = 0 := by
      nlinarith [mul_self_nonneg a.x, mul_self_nonneg a.y, mul_self_nonneg a.z]
    have hz : a.z * a.z = 0 := by
      nlinarith [mul_self_nonneg a.x, mul_self_nonneg a.y, mul_self_nonneg a.z]
    ext
    · simpa using hx
    · simpa using hy
    · simpa using hz
  · rintro rfl; simp

theorem dot_self_pos {a : V3} (h : a ≠ 0) : 0 < a.dot a :=
  lt_of_le_of_ne (dot_self_nonneg a) (fun h' => h (dot_self_eq_zero.1 h'.symm))

theorem norm_nonneg (a : V3) : 0 ≤ a.norm := Real.sqrt_nonneg _
theorem norm_mul_self (a : V3) : a.norm * a.norm = a.dot a := Real.mul_self_sqrt (dot_self_nonneg a)
theorem norm_sq (a : V3) : a.norm ^ 2 = a.dot a := by rw [sq, norm_mul_self]
theorem norm_eq_zero {a : V3} : a.norm = 0 ↔ a = 0 := by
  rw [norm, Real.sqrt_eq_zero (dot_self_nonneg a), dot_self_eq_zero]
theorem norm_pos {a : V3} (h : a ≠ 0) : 0 < a.norm := Real.sqrt_pos.2 (dot_self_pos h)
@[simp] theorem norm_zero : (0 : V3).norm = 0 := norm_eq_zero.2 rfl
@[simp] theorem norm_neg (a : V3) : (-a).norm = a.norm := by
  simp [norm, dot]
theorem norm_smul (s : ℝ) (a : V3) : (s • a).norm = |s| * a.norm := by
  rw [norm, norm, dot_smul_left, dot_smul_right, ← mul_assoc, Real.sqrt_mul (mul_self_nonneg s),
    Real.sqrt_mul_self_eq_abs]

/-- Lagrange's identity. -/
theorem cross_dot_self (a b : V3) :
    (cross a b).dot (cross a b) = a.dot a * b.dot b - a.dot b ^ 2 := by
  simp [dot]; ring

theorem ext_iff' (a b : V3) : a = b ↔ a.x = b.x ∧ a.y = b.y ∧ a.z = b.z := V3.ext_iff

/-- Coordinates as additive maps (used to push `.x`, `.y`, `.z` through sums). -/
def xHom : V3 →+ ℝ := ⟨⟨V3.x, rfl⟩, fun _ _ => rfl⟩
def yHom : V3 →+ ℝ := ⟨⟨V3.y, rfl⟩, fun _ _ => rfl⟩
def zHom : V3 →+ ℝ := ⟨⟨V3.z, rfl⟩, fun _ _ => rfl⟩

end V3

/-- A numpy array of shape `(3, 3)`, by rows.  Models the return value of `rotation_matrix`,
`rotations/geometry_calc.py:31-33`. -/
@[ext]
structure M3 where
  r0 : V3
  r1 : V3
  r2 : V3

namespace M3

/-- `np.dot(M, v)`, e.g. `rotations/csys_transformations.py:48`. -/
def mulVec (m : M3) (v : V3) : V3 := ⟨m.r0.dot v, m.r1.dot v, m.r2.dot v⟩

@[simp] theorem mulVec_x (m : M3) (v : V3) : (m.mulVec v).x = m.r0.dot v := rfl
@[simp] theorem mulVec_y (m : M3) (v : V3) : (m.mulVec v).y = m.r1.dot v := rfl
@[simp] theorem mulVec_z (m : M3) (v : V3) : (m.mulVec v).z = m.r2.dot v := rfl

theorem mulVec_add (m : M3) (a b : V3) : m.mulVec (a + b) = m.mulVec a + m.mulVec b := by
  ext <;> simp [V3.dot_add_right]
theorem mulVec_sub (m : M3) (a b : V3) : m.mulVec (a - b) = m.mulVec a - m.mulVec b := by
  ext <;> simp [V3.dot_sub_right]
theorem mulVec_smul (m : M3) (s : ℝ) (a : V3) : m.mulVec (s • a) = s • m.mulVec a := by
  ext <;> simp [V3.dot_smul_right]
@[simp] theorem mulVec_zero (m : M3) : m.mulVec 0 = 0 := by ext <;> simp

end M3

end PySailing
