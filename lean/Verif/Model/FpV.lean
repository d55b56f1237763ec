import Verif.Model.Fp
import Verif.Model.Tower
import Verif.Proof.FpInverse

/-!
# `class fp` restricted to canonical values

The operations of `fp` on values below `p`, run on the x86-64 routines. The subtype records the class invariant; its
preservation by every operation is part of the definition.
-/

namespace Bls

/-- Canonical `fp` values; `adx` is the multiplication routine selected at load time
(`src/arithmetic.cpp:147-195`). -/
def FpV (_adx : Bool) : Type := { x : Fp // x.val < p }

/-- Equality of the words, as `fp::operator==` (`include/bls12-381/fp.hpp:97`). -/
instance (adx : Bool) : DecidableEq (FpV adx) := inferInstanceAs (DecidableEq { x : Fp // x.val < p })

namespace FpV

variable {adx : Bool}

theorem rep (x : FpV adx) : x.1.Rep ((x.1.val : ZMod p) * Rinv) := Fp.rep_of_valid x.2

@[ext] theorem ext {x y : FpV adx} (h : x.1 = y.1) : x = y := Subtype.ext h

/-- `_multiply` of any six words by a canonical value is canonical. -/
theorem mul_valid (x : Fp) {y : Fp} (h : y.val < p) : (X86.mul adx x y).val < p := by
  rw [X86.mul_val]; exact (X86.redc_spec (Fp.mul_bound x h)).1

theorem inv_valid (x : FpV adx) : (x.1.inverse adx).val < p := by
  by_cases h : x.1.val = 0
  · rw [Fp.inverse_zero adx h]; exact Fp.zero_rep.1
  · refine (Fp.inverse_rep adx x.rep ?_).1
    intro h0
    have h1 := x.rep.2
    rw [h0, zero_mul, ZMod.natCast_eq_zero_iff] at h1
    exact h (Nat.eq_zero_of_dvd_of_lt h1 x.2)

/-- `class fp` (`src/fp.cpp:62-323`) on canonical values; each field is the member function of the same name
(`Model/X86Ops.lean`, `Model/Fp.lean`). `const` is a canonical literal. -/
instance : FpOps (FpV adx) where
  zero := ⟨Fp.zero, Fp.zero_rep.1⟩
  one := ⟨Fp.R1, Fp.R1_rep.1⟩
  add x y := ⟨X86.add x.1 y.1, (X86.rep_add x.rep y.rep).1⟩
  sub x y := ⟨X86.sub x.1 y.1, (X86.rep_sub x.rep y.rep).1⟩
  neg x := ⟨X86.neg x.1, (X86.rep_neg x.rep).1⟩
  dbl x := ⟨X86.dbl x.1, (X86.rep_dbl x.rep).1⟩
  mul x y := ⟨X86.mul adx x.1 y.1, mul_valid x.1 y.2⟩
  sqr x := ⟨X86.sqr x.1, (X86.rep_sqr x.rep).1⟩
  inv x := ⟨x.1.inverse adx, inv_valid x⟩
  isZero x := x.1.isZero
  isOne x := x.1.isOne
  equal x y := x.1.equal y.1
  mulLadd x y z := ⟨X86.mul adx (X86.ladd x.1 y.1) z.1, mul_valid _ z.2⟩
  mulLdbl x z := ⟨X86.mul adx (X86.ldbl x.1) z.1, mul_valid _ z.2⟩
  const c := if h : c.val < p then ⟨c, h⟩ else ⟨Fp.zero, Fp.zero_rep.1⟩
  toMont c := ⟨c.toMont adx, (Fp.toMont_rep adx c).1⟩
  fromMont x := x.1.fromMont adx

end FpV

end Bls
