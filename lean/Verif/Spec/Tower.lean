import Verif.Model.Tower
import Verif.Spec.Params
import Mathlib.Data.ZMod.Basic
import Mathlib.Algebra.Field.ZMod
import Mathlib.Tactic.Ring

/-!
# The tower `F_p ⊂ F_p² ⊂ F_p⁶ ⊂ F_p¹²`

Schoolbook ring structures on the pairs and triples: `u² = -1`, `v³ = ξ = 1 + u`, `w² = v`.
-/

namespace Bls

/-- `K` is the field with `p` elements. -/
class IsFp (K : Type) [Field K] : Prop where
  charP : CharP K p
  surj : ∀ x : K, ∃ n : ℕ, (n : K) = x

namespace Fp2

variable {K : Type} [CommRing K]

instance : Zero (Fp2 K) := ⟨⟨0, 0⟩⟩
instance : One (Fp2 K) := ⟨⟨1, 0⟩⟩
instance : Add (Fp2 K) := ⟨fun a b => ⟨a.c0 + b.c0, a.c1 + b.c1⟩⟩
instance : Neg (Fp2 K) := ⟨fun a => ⟨-a.c0, -a.c1⟩⟩
instance : Sub (Fp2 K) := ⟨fun a b => ⟨a.c0 - b.c0, a.c1 - b.c1⟩⟩
/-- `(a₀ + a₁u)(b₀ + b₁u)` with `u² = -1`. -/
instance : Mul (Fp2 K) := ⟨fun a b => ⟨a.c0 * b.c0 - a.c1 * b.c1, a.c0 * b.c1 + a.c1 * b.c0⟩⟩

@[simp] theorem zero_c0 : (0 : Fp2 K).c0 = 0 := rfl
@[simp] theorem zero_c1 : (0 : Fp2 K).c1 = 0 := rfl
@[simp] theorem one_c0 : (1 : Fp2 K).c0 = 1 := rfl
@[simp] theorem one_c1 : (1 : Fp2 K).c1 = 0 := rfl
@[simp] theorem add_c0 (a b : Fp2 K) : (a + b).c0 = a.c0 + b.c0 := rfl
@[simp] theorem add_c1 (a b : Fp2 K) : (a + b).c1 = a.c1 + b.c1 := rfl
@[simp] theorem neg_c0 (a : Fp2 K) : (-a).c0 = -a.c0 := rfl
@[simp] theorem neg_c1 (a : Fp2 K) : (-a).c1 = -a.c1 := rfl
@[simp] theorem sub_c0 (a b : Fp2 K) : (a - b).c0 = a.c0 - b.c0 := rfl
@[simp] theorem sub_c1 (a b : Fp2 K) : (a - b).c1 = a.c1 - b.c1 := rfl
@[simp] theorem mul_c0 (a b : Fp2 K) : (a * b).c0 = a.c0 * b.c0 - a.c1 * b.c1 := rfl
@[simp] theorem mul_c1 (a b : Fp2 K) : (a * b).c1 = a.c0 * b.c1 + a.c1 * b.c0 := rfl

instance : CommRing (Fp2 K) where
  add_assoc a b c := by ext <;> simp [add_assoc]
  zero_add a := by ext <;> simp
  add_zero a := by ext <;> simp
  add_comm a b := by ext <;> simp [add_comm]
  left_distrib a b c := by ext <;> simp <;> ring
  right_distrib a b c := by ext <;> simp <;> ring
  zero_mul a := by ext <;> simp
  mul_zero a := by ext <;> simp
  mul_assoc a b c := by ext <;> simp <;> ring
  one_mul a := by ext <;> simp
  mul_one a := by ext <;> simp
  neg_add_cancel a := by ext <;> simp
  mul_comm a b := by ext <;> simp <;> ring
  sub_eq_add_neg a b := by ext <;> simp [sub_eq_add_neg]
  nsmul := nsmulRec
  zsmul := zsmulRec

/-- The constant `ξ = 1 + u`. -/
def xi : Fp2 K := ⟨1, 1⟩

/-- The embedding of `F_p`. -/
def ofBase (a : K) : Fp2 K := ⟨a, 0⟩

end Fp2

namespace Fp6

variable {K : Type} [CommRing K]

instance : Zero (Fp6 K) := ⟨⟨0, 0, 0⟩⟩
instance : One (Fp6 K) := ⟨⟨1, 0, 0⟩⟩
instance : Add (Fp6 K) := ⟨fun a b => ⟨a.c0 + b.c0, a.c1 + b.c1, a.c2 + b.c2⟩⟩
instance : Neg (Fp6 K) := ⟨fun a => ⟨-a.c0, -a.c1, -a.c2⟩⟩
instance : Sub (Fp6 K) := ⟨fun a b => ⟨a.c0 - b.c0, a.c1 - b.c1, a.c2 - b.c2⟩⟩
/-- Multiplication of polynomials in `v` with `v³ = ξ`. -/
instance : Mul (Fp6 K) := ⟨fun a b =>
  ⟨a.c0 * b.c0 + Fp2.xi * (a.c1 * b.c2 + a.c2 * b.c1), a.c0 * b.c1 + a.c1 * b.c0 + Fp2.xi * (a.c2 * b.c2),
    a.c0 * b.c2 + a.c1 * b.c1 + a.c2 * b.c0⟩⟩

@[simp] theorem zero_c0 : (0 : Fp6 K).c0 = 0 := rfl
@[simp] theorem zero_c1 : (0 : Fp6 K).c1 = 0 := rfl
@[simp] theorem zero_c2 : (0 : Fp6 K).c2 = 0 := rfl
@[simp] theorem one_c0 : (1 : Fp6 K).c0 = 1 := rfl
@[simp] theorem one_c1 : (1 : Fp6 K).c1 = 0 := rfl
@[simp] theorem one_c2 : (1 : Fp6 K).c2 = 0 := rfl
@[simp] theorem add_c0 (a b : Fp6 K) : (a + b).c0 = a.c0 + b.c0 := rfl
@[simp] theorem add_c1 (a b : Fp6 K) : (a + b).c1 = a.c1 + b.c1 := rfl
@[simp] theorem add_c2 (a b : Fp6 K) : (a + b).c2 = a.c2 + b.c2 := rfl
@[simp] theorem neg_c0 (a : Fp6 K) : (-a).c0 = -a.c0 := rfl
@[simp] theorem neg_c1 (a : Fp6 K) : (-a).c1 = -a.c1 := rfl
@[simp] theorem neg_c2 (a : Fp6 K) : (-a).c2 = -a.c2 := rfl
@[simp] theorem sub_c0 (a b : Fp6 K) : (a - b).c0 = a.c0 - b.c0 := rfl
@[simp] theorem sub_c1 (a b : Fp6 K) : (a - b).c1 = a.c1 - b.c1 := rfl
@[simp] theorem sub_c2 (a b : Fp6 K) : (a - b).c2 = a.c2 - b.c2 := rfl
@[simp] theorem mul_c0 (a b : Fp6 K) :
    (a * b).c0 = a.c0 * b.c0 + Fp2.xi * (a.c1 * b.c2 + a.c2 * b.c1) := rfl
@[simp] theorem mul_c1 (a b : Fp6 K) :
    (a * b).c1 = a.c0 * b.c1 + a.c1 * b.c0 + Fp2.xi * (a.c2 * b.c2) := rfl
@[simp] theorem mul_c2 (a b : Fp6 K) : (a * b).c2 = a.c0 * b.c2 + a.c1 * b.c1 + a.c2 * b.c0 := rfl

instance : CommRing (Fp6 K) where
  add_assoc a b c := by ext1 <;> simp only [add_c0, add_c1, add_c2] <;> ring
  zero_add a := by ext1 <;> simp
  add_zero a := by ext1 <;> simp
  add_comm a b := by ext1 <;> simp only [add_c0, add_c1, add_c2] <;> ring
  left_distrib a b c := by ext1 <;> simp only [add_c0, add_c1, add_c2, mul_c0, mul_c1, mul_c2] <;> ring
  right_distrib a b c := by ext1 <;> simp only [add_c0, add_c1, add_c2, mul_c0, mul_c1, mul_c2] <;> ring
  zero_mul a := by ext1 <;> simp
  mul_zero a := by ext1 <;> simp
  mul_assoc a b c := by ext1 <;> simp only [mul_c0, mul_c1, mul_c2] <;> ring
  one_mul a := by ext1 <;> simp
  mul_one a := by ext1 <;> simp
  neg_add_cancel a := by ext1 <;> simp
  mul_comm a b := by ext1 <;> simp only [mul_c0, mul_c1, mul_c2] <;> ring
  sub_eq_add_neg a b := by ext1 <;> simp [sub_eq_add_neg]
  nsmul := nsmulRec
  zsmul := zsmulRec

/-- The generator `v`. -/
def v : Fp6 K := ⟨0, 1, 0⟩

/-- The embedding of `F_p²`. -/
def ofFp2 (a : Fp2 K) : Fp6 K := ⟨a, 0, 0⟩

end Fp6

namespace Fp12

variable {K : Type} [CommRing K]

instance : Zero (Fp12 K) := ⟨⟨0, 0⟩⟩
instance : One (Fp12 K) := ⟨⟨1, 0⟩⟩
instance : Add (Fp12 K) := ⟨fun a b => ⟨a.c0 + b.c0, a.c1 + b.c1⟩⟩
instance : Neg (Fp12 K) := ⟨fun a => ⟨-a.c0, -a.c1⟩⟩
instance : Sub (Fp12 K) := ⟨fun a b => ⟨a.c0 - b.c0, a.c1 - b.c1⟩⟩
/-- `(a₀ + a₁w)(b₀ + b₁w)` with `w² = v`. -/
instance : Mul (Fp12 K) := ⟨fun a b => ⟨a.c0 * b.c0 + Fp6.v * (a.c1 * b.c1), a.c0 * b.c1 + a.c1 * b.c0⟩⟩

@[simp] theorem zero_c0 : (0 : Fp12 K).c0 = 0 := rfl
@[simp] theorem zero_c1 : (0 : Fp12 K).c1 = 0 := rfl
@[simp] theorem one_c0 : (1 : Fp12 K).c0 = 1 := rfl
@[simp] theorem one_c1 : (1 : Fp12 K).c1 = 0 := rfl
@[simp] theorem add_c0 (a b : Fp12 K) : (a + b).c0 = a.c0 + b.c0 := rfl
@[simp] theorem add_c1 (a b : Fp12 K) : (a + b).c1 = a.c1 + b.c1 := rfl
@[simp] theorem neg_c0 (a : Fp12 K) : (-a).c0 = -a.c0 := rfl
@[simp] theorem neg_c1 (a : Fp12 K) : (-a).c1 = -a.c1 := rfl
@[simp] theorem sub_c0 (a b : Fp12 K) : (a - b).c0 = a.c0 - b.c0 := rfl
@[simp] theorem sub_c1 (a b : Fp12 K) : (a - b).c1 = a.c1 - b.c1 := rfl
@[simp] theorem mul_c0 (a b : Fp12 K) : (a * b).c0 = a.c0 * b.c0 + Fp6.v * (a.c1 * b.c1) := rfl
@[simp] theorem mul_c1 (a b : Fp12 K) : (a * b).c1 = a.c0 * b.c1 + a.c1 * b.c0 := rfl

instance : CommRing (Fp12 K) where
  add_assoc a b c := by ext1 <;> simp only [add_c0, add_c1] <;> ring
  zero_add a := by ext1 <;> simp
  add_zero a := by ext1 <;> simp
  add_comm a b := by ext1 <;> simp only [add_c0, add_c1] <;> ring
  left_distrib a b c := by ext1 <;> simp only [add_c0, add_c1, mul_c0, mul_c1] <;> ring
  right_distrib a b c := by ext1 <;> simp only [add_c0, add_c1, mul_c0, mul_c1] <;> ring
  zero_mul a := by ext1 <;> simp
  mul_zero a := by ext1 <;> simp
  mul_assoc a b c := by ext1 <;> simp only [mul_c0, mul_c1] <;> ring
  one_mul a := by ext1 <;> simp
  mul_one a := by ext1 <;> simp
  neg_add_cancel a := by ext1 <;> simp
  mul_comm a b := by ext1 <;> simp only [mul_c0, mul_c1] <;> ring
  sub_eq_add_neg a b := by ext1 <;> simp [sub_eq_add_neg]
  nsmul := nsmulRec
  zsmul := zsmulRec

/-- The generator `w`. -/
def w : Fp12 K := ⟨0, 1⟩

/-- The embedding of `F_p⁶`. -/
def ofFp6 (a : Fp6 K) : Fp12 K := ⟨a, 0⟩

end Fp12

end Bls
