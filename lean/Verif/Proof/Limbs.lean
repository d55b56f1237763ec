import Verif.Spec.Params
import Verif.Proof.Word

/-! Basic facts on `Fp.val`. -/

namespace Bls

set_option exponentiation.threshold 1000

theorem Fp.val_lt (x : Fp) : x.val < 2 ^ 384 := by
  have h0 := u64_lt x.d0; have h1 := u64_lt x.d1; have h2 := u64_lt x.d2
  have h3 := u64_lt x.d3; have h4 := u64_lt x.d4; have h5 := u64_lt x.d5
  unfold Fp.val
  omega

theorem Fp.val_inj {x y : Fp} (h : x.val = y.val) : x = y := by
  have h0 := u64_lt x.d0; have h1 := u64_lt x.d1; have h2 := u64_lt x.d2
  have h3 := u64_lt x.d3; have h4 := u64_lt x.d4; have h5 := u64_lt x.d5
  have g0 := u64_lt y.d0; have g1 := u64_lt y.d1; have g2 := u64_lt y.d2
  have g3 := u64_lt y.d3; have g4 := u64_lt y.d4; have g5 := u64_lt y.d5
  unfold Fp.val at h
  ext <;> omega

theorem MODULUS_val : MODULUS.val = p := by decide +kernel

theorem Fp.isZero_iff (x : Fp) : x.isZero = true ↔ x.val = 0 := by
  simp only [Fp.isZero, beq_iff_eq, UInt64.or_eq_zero_iff]
  simp only [Fp.val, ← UInt64.toNat_inj, UInt64.toNat_zero]
  omega

theorem ltModulus_iff (z : Fp) : ltModulus z = true ↔ z.val < p := by
  have h0 := u64_lt z.d0; have h1 := u64_lt z.d1; have h2 := u64_lt z.d2
  have h3 := u64_lt z.d3; have h4 := u64_lt z.d4; have h5 := u64_lt z.d5
  simp only [ltModulus, Bool.or_eq_true, Bool.and_eq_true, decide_eq_true_eq, beq_iff_eq,
    UInt64.lt_iff_toNat_lt, ← UInt64.toNat_inj, ← MODULUS_val, Fp.val]
  have g0 := u64_lt MODULUS.d0; have g1 := u64_lt MODULUS.d1; have g2 := u64_lt MODULUS.d2
  have g3 := u64_lt MODULUS.d3; have g4 := u64_lt MODULUS.d4; have g5 := u64_lt MODULUS.d5
  generalize MODULUS = M at *
  omega

end Bls
