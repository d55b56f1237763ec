import Verif.Model.FpP
import Verif.Model.Signatures
import Verif.Proof.Portable
import Verif.Proof.X86Ops
import Verif.Proof.FpV

/-!
# The portable build beside the x86-64 build
-/

namespace Bls.Portable

theorem coprime_R : Nat.Coprime p (2 ^ 384) := by decide +kernel

/-- Both multiplications return the same words. -/
theorem multiply_same (adx : Bool) (x y : Fp) (hy : y.val + p < 2 ^ 384) (hxy : x.val * y.val < 2 ^ 384 * p) :
    multiply x y = X86.mul adx x y := by
  obtain ⟨l1, e1⟩ := multiply_spec x y hy hxy
  obtain ⟨l2, e2⟩ := X86.redc_spec hxy
  rw [← X86.mul_val adx] at l2 e2
  apply Fp.val_inj
  have h : (2 ^ 384 * (multiply x y).val) ≡ 2 ^ 384 * (X86.mul adx x y).val [MOD p] := e1.trans e2.symm
  exact Nat.ModEq.eq_of_lt_of_lt (Nat.ModEq.cancel_left_of_coprime coprime_R h) l1 l2

theorem multiply_same_const (adx : Bool) (x y : Fp) (hy : y.val < p) : multiply x y = X86.mul adx x y := by
  have h2 : 2 * p < 2 ^ 384 := by decide +kernel
  exact multiply_same adx x y (by omega) (Fp.mul_bound x hy)

theorem toMont_same (adx : Bool) (x : Fp) : toMont x = x.toMont adx :=
  multiply_same_const adx x _ (by decide +kernel)

theorem fromMont_same (adx : Bool) (x : Fp) : fromMont x = x.fromMont adx :=
  multiply_same_const adx x _ (by decide +kernel)

end Bls.Portable

namespace Bls.Sig

variable {K L : Type} [FpOps K] [FpOps L]

/-- Whether `fromMessage` is defined does not depend on the field arithmetic. -/
theorem fromMessage_defined (m dst : List UInt8) :
    (fromMessage m dst : Option (G2 K)).isSome = (fromMessage m dst : Option (G2 L)).isSome := by
  unfold fromMessage
  split
  · rfl
  · rename_i code buf _
    split_ifs
    · rfl
    · have h : ∀ o, (fieldElement buf o : Option K).isSome = (fieldElement buf o : Option L).isSome := fun o => by
        simp only [fieldElement, modPrime, Option.isSome_map]
      have h0 := h 0
      have h1 := h 64
      have h2 := h 128
      have h3 := h 192
      revert h0 h1 h2 h3
      cases (fieldElement buf 0 : Option K) <;> cases (fieldElement buf 0 : Option L) <;>
      cases (fieldElement buf 64 : Option K) <;> cases (fieldElement buf 64 : Option L) <;>
      cases (fieldElement buf 128 : Option K) <;> cases (fieldElement buf 128 : Option L) <;>
      cases (fieldElement buf 192 : Option K) <;> cases (fieldElement buf 192 : Option L) <;> simp

end Bls.Sig
