import Verif.Model.FpV
import Verif.Spec.Lawful
import Mathlib.Algebra.Field.TransferInstance
import Mathlib.Algebra.CharP.Algebra

/-! Canonical `fp` values form the field with `p` elements. -/

namespace Bls

/-- The six words of `n mod 2^384`. -/
def Fp.ofNat (n : Nat) : Fp :=
  ⟨UInt64.ofNat n, UInt64.ofNat (n / 2 ^ 64), UInt64.ofNat (n / 2 ^ 128), UInt64.ofNat (n / 2 ^ 192),
    UInt64.ofNat (n / 2 ^ 256), UInt64.ofNat (n / 2 ^ 320)⟩

set_option exponentiation.threshold 1000

theorem two_pow_lt : 2 ^ 381 < 2 ^ 384 := by norm_num

theorem Fp.ofNat_val (n : Nat) (h : n < 2 ^ 384) : (Fp.ofNat n).val = n := by
  simp only [Fp.ofNat, Fp.val, UInt64.toNat_ofNat']
  omega

namespace FpV

variable {adx : Bool}

/-- The residue represented by a canonical value. -/
def toZ (x : FpV adx) : ZMod p := (x.1.val : ZMod p) * Rinv

theorem rep_toZ (x : FpV adx) : x.1.Rep x.toZ := x.rep

/-- The canonical value representing a residue. -/
def ofZ (a : ZMod p) : FpV adx :=
  ⟨Fp.ofNat (a * 2 ^ 384 : ZMod p).val, by
    rw [Fp.ofNat_val _ ((ZMod.val_lt _).trans (X86.p_lt.trans two_pow_lt))]
    exact ZMod.val_lt _⟩

theorem ofZ_rep (a : ZMod p) : (ofZ a : FpV adx).1.Rep a := by
  refine ⟨(ofZ a : FpV adx).2, ?_⟩
  change ((Fp.ofNat _).val : ZMod p) = _
  rw [Fp.ofNat_val _ ((ZMod.val_lt _).trans (X86.p_lt.trans two_pow_lt)), ZMod.natCast_val,
    ZMod.cast_id]

theorem eq_of_rep {x y : FpV adx} {a : ZMod p} (hx : x.1.Rep a) (hy : y.1.Rep a) : x = y :=
  FpV.ext (hx.inj hy)

/-- Montgomery decoding is a bijection onto the residues. -/
def equiv (adx : Bool) : FpV adx ≃ ZMod p where
  toFun := toZ
  invFun := ofZ
  left_inv x := eq_of_rep (ofZ_rep _) x.rep_toZ
  right_inv a := (rep_toZ (adx := adx) _).unique (ofZ_rep a)

/-- The field structure of the represented residues. -/
noncomputable instance : Field (FpV adx) := (equiv adx).field

/-- Montgomery decoding as a ring isomorphism. -/
noncomputable def ringEquiv (adx : Bool) : FpV adx ≃+* ZMod p := (equiv adx).ringEquiv

theorem ringEquiv_apply (x : FpV adx) : ringEquiv adx x = x.toZ := rfl

theorem toZ_inj {x y : FpV adx} (h : x.toZ = y.toZ) : x = y := (equiv adx).injective h

theorem toZ_eq {x : FpV adx} {a : ZMod p} (h : x.1.Rep a) : x.toZ = a := x.rep_toZ.unique h

theorem toZ_natCast (n : ℕ) : ((n : FpV adx)).toZ = n := map_natCast (ringEquiv adx) n

theorem toZ_add (x y : FpV adx) : (x + y).toZ = x.toZ + y.toZ := map_add (ringEquiv adx) x y
theorem toZ_sub (x y : FpV adx) : (x - y).toZ = x.toZ - y.toZ := map_sub (ringEquiv adx) x y
theorem toZ_mul (x y : FpV adx) : (x * y).toZ = x.toZ * y.toZ := map_mul (ringEquiv adx) x y
theorem toZ_neg (x : FpV adx) : (-x).toZ = -x.toZ := map_neg (ringEquiv adx) x
theorem toZ_zero : (0 : FpV adx).toZ = 0 := map_zero (ringEquiv adx)
theorem toZ_one : (1 : FpV adx).toZ = 1 := map_one (ringEquiv adx)
theorem toZ_inv (x : FpV adx) : (x⁻¹).toZ = x.toZ⁻¹ := map_inv₀ (ringEquiv adx) x

theorem rep_zero : (0 : FpV adx).1.Rep 0 := by have := rep_toZ (0 : FpV adx); rwa [toZ_zero] at this

theorem rep_mul_gen {x z : FpV adx} {y : Fp} {b : ZMod p} (hy : (y.val : ZMod p) = b * 2 ^ 384)
    (h : z.1 = X86.mul adx y x.1) : z.toZ = b * x.toZ := by
  apply toZ_eq
  rw [h]
  have hb := Fp.mul_bound y x.2
  obtain ⟨g1, g2⟩ := X86.redc_spec hb
  rw [← X86.mul_val adx] at g1 g2
  refine ⟨g1, ?_⟩
  have g3 := Fp.cast_of_mod g2
  rw [Nat.cast_mul, Nat.cast_mul, Nat.cast_pow, hy, x.rep_toZ.2, Nat.cast_ofNat] at g3
  apply R_cancel
  rw [mul_comm, g3]
  ring

attribute [local irreducible] X86.add X86.sub X86.neg X86.dbl X86.mul X86.sqr Fp.inverse

instance : LawfulFp (FpV adx) where
  charP := by
    exact charP_of_injective_ringHom (f := ((ringEquiv adx).symm : ZMod p →+* FpV adx))
      (ringEquiv adx).symm.injective p
  surj x := by
    refine ⟨x.toZ.val, ?_⟩
    apply toZ_inj
    rw [toZ_natCast, ZMod.natCast_val, ZMod.cast_id]
  zero_eq := toZ_inj (by rw [toZ_zero]; exact toZ_eq Fp.zero_rep)
  one_eq := toZ_inj (by rw [toZ_one]; exact toZ_eq Fp.R1_rep)
  add_eq x y := toZ_inj (by rw [toZ_add]; exact toZ_eq (X86.rep_add x.rep_toZ y.rep_toZ))
  sub_eq x y := toZ_inj (by rw [toZ_sub]; exact toZ_eq (X86.rep_sub x.rep_toZ y.rep_toZ))
  neg_eq x := toZ_inj (by rw [toZ_neg]; exact toZ_eq (X86.rep_neg x.rep_toZ))
  dbl_eq x := toZ_inj (by rw [toZ_add]; exact toZ_eq (X86.rep_dbl x.rep_toZ))
  mul_eq x y := toZ_inj (by rw [toZ_mul]; exact toZ_eq (X86.rep_mul x.rep_toZ y.rep_toZ))
  sqr_eq x := toZ_inj (by
    rw [toZ_mul]
    apply toZ_eq
    change (X86.sqr x.1).Rep _
    exact X86.rep_sqr x.rep_toZ)
  inv_eq x := toZ_inj (by
    rw [toZ_inv]
    by_cases h : x.toZ = 0
    · rw [h, inv_zero]
      apply toZ_eq
      have : x = 0 := toZ_inj (by rw [h, toZ_zero])
      change (x.1.inverse adx).Rep 0
      rw [Fp.inverse_zero]
      · exact Fp.zero_rep
      · have h1 := x.rep_toZ.2
        rw [h, zero_mul, ZMod.natCast_eq_zero_iff] at h1
        exact Nat.eq_zero_of_dvd_of_lt h1 x.2
    · exact toZ_eq (Fp.inverse_rep adx x.rep_toZ h))
  isZero_iff x := by
    change x.1.isZero = true ↔ _
    rw [Fp.isZero_iff]
    constructor
    · intro h
      apply toZ_inj
      rw [toZ_zero, toZ, h, Nat.cast_zero, zero_mul]
    · rintro rfl
      have h1 := (rep_zero (adx := adx)).2
      rw [zero_mul, ZMod.natCast_eq_zero_iff] at h1
      exact Nat.eq_zero_of_dvd_of_lt h1 (0 : FpV adx).2
  isOne_iff x := by
    change x.1.equal Fp.R1 = true ↔ _
    rw [Fp.equal_iff]
    constructor
    · intro h
      apply toZ_inj
      rw [toZ_one]
      exact toZ_eq (h ▸ Fp.R1_rep)
    · rintro rfl
      have h1 := rep_toZ (1 : FpV adx)
      rw [toZ_one] at h1
      exact h1.inj Fp.R1_rep
  equal_iff x y := by
    change x.1.equal y.1 = true ↔ _
    rw [Fp.equal_iff]
    exact ⟨fun h => FpV.ext h, fun h => by rw [h]⟩
  mulLadd_eq x y z := toZ_inj (by
    rw [toZ_mul, toZ_add]
    refine rep_mul_gen (y := X86.ladd x.1 y.1) ?_ rfl
    rw [X86.ladd_val, Nat.mod_eq_of_lt, Nat.cast_add, x.rep_toZ.2, y.rep_toZ.2]
    · ring
    · have := X86.p_lt
      have := x.2
      have := y.2
      omega)
  mulLdbl_eq x z := toZ_inj (by
    rw [toZ_mul, toZ_add]
    refine rep_mul_gen (y := X86.ldbl x.1) ?_ rfl
    rw [X86.ldbl_val, Nat.mod_eq_of_lt, Nat.cast_add, x.rep_toZ.2]
    · ring
    · have := X86.p_lt
      have := x.2
      omega)
  const_eq c h := toZ_inj (by
    rw [toZ_natCast, toZ_mul]
    have e : (FpOps.const c : FpV adx) = ⟨c, h⟩ := dif_pos h
    have e2 : ((2 : FpV adx) ^ 384).toZ = 2 ^ 384 := by
      rw [← ringEquiv_apply, map_pow, map_ofNat]
    rw [e, e2]
    exact ((rep_toZ (⟨c, h⟩ : FpV adx)).2).symm)
  toMont_eq c := toZ_inj (by rw [toZ_natCast]; exact toZ_eq (Fp.toMont_rep adx c))
  fromMont_lt x := (Fp.fromMont_spec adx x.rep_toZ).1
  fromMont_cast x := toZ_inj (by
    rw [toZ_natCast]
    exact (Fp.fromMont_spec adx x.rep_toZ).2)

end FpV

end Bls
