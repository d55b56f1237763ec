import Verif.Spec.Tower

/-!
# Lawful implementations

What it means for a set of machine operations to implement field arithmetic.
-/

namespace Bls

/-- The operations of a field class compute the operations of the field `F`. -/
class LawfulOps (F : Type) [Field F] [Ops F] : Prop where
  zero_eq : (Ops.zero : F) = 0
  one_eq : (Ops.one : F) = 1
  add_eq (x y : F) : Ops.add x y = x + y
  sub_eq (x y : F) : Ops.sub x y = x - y
  neg_eq (x : F) : Ops.neg x = -x
  dbl_eq (x : F) : Ops.dbl x = x + x
  mul_eq (x y : F) : Ops.mul x y = x * y
  sqr_eq (x : F) : Ops.sqr x = x * x
  inv_eq (x : F) : Ops.inv x = x⁻¹
  isZero_iff (x : F) : Ops.isZero x = true ↔ x = 0
  isOne_iff (x : F) : Ops.isOne x = true ↔ x = 1
  equal_iff (x y : F) : Ops.equal x y = true ↔ x = y

/-- The operations of `fp` compute in the field `K` with `p` elements; `const` decodes Montgomery words and
`toMont`/`fromMont` are the conversions from and to plain words. -/
class LawfulFp (K : Type) [Field K] [FpOps K] : Prop extends IsFp K, LawfulOps K where
  mulLadd_eq (x y z : K) : FpOps.mulLadd x y z = (x + y) * z
  mulLdbl_eq (x z : K) : FpOps.mulLdbl x z = (x + x) * z
  const_eq (c : Fp) : c.val < p → (FpOps.const c : K) * 2 ^ 384 = (c.val : K)
  toMont_eq (c : Fp) : (FpOps.toMont c : K) = (c.val : K)
  fromMont_lt (x : K) : (FpOps.fromMont x).val < p
  fromMont_cast (x : K) : ((FpOps.fromMont x).val : K) = x

end Bls
