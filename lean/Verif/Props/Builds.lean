import Verif.Proof.Builds
import Verif.Props.Field
import Verif.Props.GroupCodec
import Verif.Props.Same
import Verif.Props.Signatures

/-!
# C64: the portable build and the x86-64 build

`FpP` is `class fp` over the portable routines (`Model/FpP.lean`), `FpV adx` the same class over the assembly routines.
All layers above are the same text. A constant of six words is `FpOps.const` in both.
-/

namespace Bls.Props
open Bls Bls.Sig

variable (adx : Bool)

/-- C64, what holds for all words: both builds have the same conversions, byte codecs, sign and order of field elements
and the same multiplication of valid elements. -/
theorem C64_words_partial :
    (∀ x y : Fp, y.Valid → Portable.multiply x y = X86.mul adx x y) ∧
    (∀ x : Fp, Portable.toMont x = x.toMont adx ∧ Portable.fromMont x = x.fromMont adx) ∧
    (∀ (check mont : Bool) (bs : List UInt8), Portable.fromBytesBE check mont bs = Fp.fromBytesBE adx check mont bs ∧
      Portable.fromBytesLE check mont bs = Fp.fromBytesLE adx check mont bs) ∧
    (∀ (mont : Bool) (x : Fp), Portable.toBytesBE mont x = x.toBytesBE adx mont ∧
      Portable.toBytesLE mont x = x.toBytesLE adx mont) ∧
    (∀ x : Fp, FpC.sign (K := FpP) x = x.sign adx ∧ FpC.lexLargest (K := FpP) x = x.lexLargest adx) := by
  refine ⟨fun x y hy => Portable.multiply_same_const adx x y hy,
    fun x => ⟨Portable.toMont_same adx x, Portable.fromMont_same adx x⟩, fun check mont bs => ?_, fun mont x => ?_,
    fun x => ?_⟩
  · unfold Portable.fromBytesBE Portable.fromBytesLE Fp.fromBytesBE Fp.fromBytesLE
    simp only [Portable.toMont_same adx]
    exact ⟨trivial, trivial⟩
  · unfold Portable.toBytesBE Portable.toBytesLE Fp.toBytesBE Fp.toBytesLE
    simp only [Portable.fromMont_same adx]
    exact ⟨trivial, trivial⟩
  · have h : FpOps.fromMont (K := FpP) x = x.fromMont adx := Portable.fromMont_same adx x
    unfold FpC.sign FpC.lexLargest Fp.sign Fp.lexLargest
    rw [h]
    generalize x.fromMont adx = y
    exact ⟨rfl, rfl⟩

/-- C64, what holds for all messages: hashing is defined for the same messages and produces the same field elements. -/
theorem C64_hash_partial :
    (∀ m dst : List UInt8, (fromMessage m dst : Option (G2 FpP)).isSome = (fromMessage m dst : Option (G2 (FpV adx))).isSome) ∧
    (∀ (buf : List UInt8) (off : ℕ), (fieldElement buf off : Option FpP) =
      (fieldElement buf off : Option (FpV adx)).map fun x => (x.1 : Fp)) := by
  refine ⟨fun m dst => fromMessage_defined m dst, fun buf off => ?_⟩
  unfold fieldElement modPrime
  generalize Division.divnSafe (Scalar.fromBytesBE 8 (span buf off 64)) MODULUS.words = o
  cases o with
  | none => rfl
  | some r => exact congrArg some (Portable.toMont_same adx _)

/-- A point of the first curve, big-endian. -/
def rejectedPoint : List UInt8 := [
  8, 206, 164, 210, 71, 94, 162, 94, 243, 207, 201, 237, 220, 15, 128, 75, 190, 39, 38, 99, 22, 209, 21, 54,
  126, 9, 170, 191, 82, 210, 224, 255, 145, 3, 96, 249, 180, 73, 251, 235, 205, 157, 183, 144, 35, 178, 248, 225,
  19, 18, 228, 231, 193, 129, 184, 146, 178, 255, 18, 90, 88, 106, 252, 180, 111, 113, 227, 80, 215, 202, 243, 19,
  130, 7, 100, 197, 165, 204, 93, 17, 142, 101, 160, 172, 196, 86, 149, 246, 14, 96, 123, 48, 90, 160, 80, 185]

/-- Two canonical coordinates that are not on the first curve, big-endian. -/
def acceptedPoint : List UInt8 := [
  18, 32, 50, 12, 76, 84, 115, 77, 178, 89, 145, 74, 125, 177, 158, 54, 86, 54, 138, 168, 232, 248, 87, 32,
  53, 140, 253, 108, 2, 132, 54, 54, 22, 184, 190, 6, 171, 108, 58, 3, 69, 165, 104, 107, 52, 127, 41, 209,
  10, 106, 70, 182, 246, 238, 253, 75, 236, 137, 17, 70, 52, 67, 204, 251, 117, 63, 95, 112, 198, 177, 10, 214,
  211, 174, 166, 44, 190, 230, 36, 31, 29, 113, 154, 10, 4, 132, 72, 26, 129, 207, 123, 84, 235, 193, 101, 48]

/-- The negation of C64 for the decoders: some bytes are a point for the x86-64 build and not for the portable build. -/
theorem C64_decode_false : ∃ bs : List UInt8, bs.length = 96 ∧
    (Jac.fromAffineBytes 48 (FpV.fromBytesBE adx true) FpC.B true bs).isSome = true ∧
    Jac.fromAffineBytes (F := FpP) 48 (Portable.fromBytesBE true true) FpC.B true bs = none := by
  refine ⟨rejectedPoint, by decide +kernel, ?_, by decide +kernel⟩
  rw [(C26_affine_g1 adx true).1.accept _ (by decide +kernel)]
  refine ⟨by unfold CanonicalBE; decide +kernel, Or.inr ?_⟩
  simp only [coord, if_true]
  rw [← Nat.cast_pow, ← Nat.cast_pow, ← Nat.cast_ofNat (R := FpV adx) (n := 4), ← Nat.cast_add, IsFp.natCast_eq_iff]
  decide +kernel

/-- The negation of C64 for the decoders: other bytes are off the curve, and the portable build accepts them. -/
theorem C64_off_curve_false : ∃ bs : List UInt8, bs.length = 96 ∧
    Jac.fromAffineBytes 48 (FpV.fromBytesBE adx true) FpC.B true bs = none ∧
    (Jac.fromAffineBytes (F := FpP) 48 (Portable.fromBytesBE true true) FpC.B true bs).isSome = true := by
  refine ⟨acceptedPoint, by decide +kernel, ?_, by decide +kernel⟩
  rw [← Option.not_isSome_iff_eq_none, (C26_affine_g1 adx true).1.accept _ (by decide +kernel)]
  rintro ⟨-, h⟩
  simp only [coord, if_true] at h
  rcases h with ⟨h, -⟩ | h
  · rw [← Nat.cast_zero (R := FpV adx), IsFp.natCast_eq_iff] at h
    revert h
    decide +kernel
  · rw [← Nat.cast_pow, ← Nat.cast_pow, ← Nat.cast_ofNat (R := FpV adx) (n := 4), ← Nat.cast_add, IsFp.natCast_eq_iff] at h
    revert h
    decide +kernel

/-- The negation of C64 for inversion: the portable inverse of a valid nonzero element is wrong. -/
theorem C64_inverse_false : ∃ x : Fp, x.Valid ∧ x.isZero = false ∧ X86.mul adx x (x.inverse adx) = Fp.R1 ∧
    Portable.multiply x (Portable.inverse x) ≠ Fp.R1 := by
  refine ⟨⟨0xffffffffffffffff, 0xffffffffffffffff, 0, 0, 0, 0⟩, by decide +kernel, by decide +kernel,
    (C08_inverse adx _ (by decide +kernel)).2.1 (by decide +kernel), by decide +kernel⟩

/-- The generator of the first group with a third coordinate whose square the portable build computes wrongly. -/
def keyX : Fp := ⟨0x0aa8bf3a605cb6c1, 0x0dcdf43b12b9682d, 0x6dbae5e5990550c0, 0xb6b161023d6aafaf, 0x841e48f7f7efa17f,
  0x172ee839a561f938⟩
@[inherit_doc keyX]
def keyY : Fp := ⟨0xd116becdf6b99a21, 0x7de518e3ce09ea8e, 0x17051ee4c9b93568, 0x764ae96c3591f0f6, 0xf8e79d514146be6b,
  0x0e8803ae6908c40b⟩
@[inherit_doc keyX]
def keyZ : Fp := ⟨0xffffffffffffffff, 0xffffffffffffffff, 0x8000000000000000, 0, 0, 0⟩

theorem key_rep : (⟨FpOps.const keyX, FpOps.const keyY, FpOps.const keyZ⟩ : G1 (FpV adx)).Rep (gen1 (FpV adx)) := by
  rw [const_nat _ (by decide +kernel), const_nat _ (by decide +kernel), const_nat _ (by decide +kernel)]
  refine ⟨fun h => ?_, ?_, ?_⟩
  · have h : ((unmont keyZ : ℕ) : FpV adx) = 0 := h
    rw [← Nat.cast_zero (R := FpV adx), IsFp.natCast_eq_iff] at h
    revert h
    decide +kernel
  · change ((unmont keyX : ℕ) : FpV adx) = (gen1X : FpV adx) * ((unmont keyZ : ℕ) : FpV adx) ^ 2
    rw [← Nat.cast_pow, ← Nat.cast_mul, IsFp.natCast_eq_iff]
    decide +kernel
  · change ((unmont keyY : ℕ) : FpV adx) = (gen1Y : FpV adx) * ((unmont keyZ : ℕ) : FpV adx) ^ 3
    rw [← Nat.cast_pow, ← Nat.cast_mul, IsFp.natCast_eq_iff]
    decide +kernel

/-- The negation of C64 for verification: there is a triple of words, coordinates of the public key of the secret key 1,
such that for every message the library can hash the x86-64 build accepts the signature under that key and the portable
build accepts no signature. -/
theorem C64_verify_false : ∃ x y z : Fp, x.Valid ∧ y.Valid ∧ z.Valid ∧
    Same1 (⟨FpOps.const x, FpOps.const y, FpOps.const z⟩ : G1 (FpV adx)) (Keys.publicKey [1, 0, 0, 0]) ∧
    ∀ m : List UInt8, m.length < 2 ^ 31 →
    (∃ s : G2 (FpV adx), sign [1, 0, 0, 0] m = some s ∧
      verify (⟨FpOps.const x, FpOps.const y, FpOps.const z⟩ : G1 (FpV adx)) m s = some true) ∧
    ∀ s : G2 FpP, verify (⟨FpOps.const x, FpOps.const y, FpOps.const z⟩ : G1 FpP) m s = some false := by
  have hs : Same1 (⟨FpOps.const keyX, FpOps.const keyY, FpOps.const keyZ⟩ : G1 (FpV adx)) (Keys.publicKey [1, 0, 0, 0]) := by
    have h := Keys.publicKey_rep (K := FpV adx) [1, 0, 0, 0]
    rw [show wordsVal [1, 0, 0, 0] = 1 by decide +kernel, one_smul] at h
    exact ⟨_, key_rep adx, h⟩
  refine ⟨keyX, keyY, keyZ, by decide +kernel, by decide +kernel, by decide +kernel, hs, fun m hm => ⟨?_, fun s => ?_⟩⟩
  · obtain ⟨s, e⟩ := C45_sign_defined (adx := adx) [1, 0, 0, 0] m hm
    obtain ⟨P, -, s', e', r⟩ := sign_rep (K := FpV adx) sha_spec [1, 0, 0, 0] hm
    obtain rfl := Option.some.inj (e.symm.trans e')
    refine ⟨s, e, ?_⟩
    rw [verify_same hs ⟨_, r, r⟩ m]
    exact C45_sign _ _ s e
  · have hd := fromMessage_defined (K := FpP) (L := FpV adx) m ciphersuiteId
    rw [hm_eq (K := FpV adx) hm, Option.isSome_some, Option.isSome_iff_exists] at hd
    obtain ⟨h, hd⟩ := hd
    have hc : (⟨FpOps.const keyX, FpOps.const keyY, FpOps.const keyZ⟩ : G1 FpP).isOnCurve FpC.B = false := by
      decide +kernel
    rw [verify, hd, Option.bind_some, hc]
    rfl

/-- The same triple for the message `abc`. -/
example : ∃ s : G2 (FpV adx), verify (⟨FpOps.const keyX, FpOps.const keyY, FpOps.const keyZ⟩ : G1 (FpV adx)) [97, 98, 99] s = some true := by
  obtain ⟨s, e⟩ := C45_sign_defined (adx := adx) [1, 0, 0, 0] [97, 98, 99] (by decide)
  obtain ⟨P, -, s', e', r⟩ := sign_rep (K := FpV adx) sha_spec [1, 0, 0, 0] (m := [97, 98, 99]) (by decide)
  obtain rfl := Option.some.inj (e.symm.trans e')
  have h := Keys.publicKey_rep (K := FpV adx) [1, 0, 0, 0]
  rw [show wordsVal [1, 0, 0, 0] = 1 by decide +kernel, one_smul] at h
  exact ⟨s, (verify_same ⟨_, key_rep adx, h⟩ ⟨_, r, r⟩ _).trans (C45_sign _ _ s e)⟩

end Bls.Props
