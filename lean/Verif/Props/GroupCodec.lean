import Verif.Proof.CompressedExact
import Verif.Proof.Compressed

/-!
# C26-C28: byte codecs of the points

`a.Rep P`: the triple `a` stands for the point `P` (`Spec/Point.lean`). `IsCompressed1`, `IsCompressed2`: the
compressed format of the standards as a number (`Spec/GroupCodec.lean`). `coord mont n`: the coordinate meant by the
number `n` in the bytes - `n` itself, or with `mont = false` (raw Montgomery form) `n / 2^384`.
-/

namespace Bls.Props
open Bls

variable (adx : Bool)

/-! ## C26 -/

/-- C26, Jacobian form of `g1`: with the on-curve check, decoding and encoding are mutually inverse between the
triples that stand for a point and the strings of three coordinates below `p` that satisfy the curve equation. -/
theorem C26_jacobian_g1 (mont : Bool) :
    IsCodec 144 (Jac.fromJacobianBytes 48 (FpV.fromBytesBE adx mont) FpC.B true)
      (Jac.toJacobianBytes (FpV.toBytesBE adx mont)) (fun a => ∃ P : E1 (FpV adx), a.Rep P)
      (fun bs => CanonicalBE 3 bs ∧ ∃ P : E1 (FpV adx), Jac.Rep ⟨coord mont (beVal (chunk bs 0)),
        coord mont (beVal (chunk bs 1)), coord mont (beVal (chunk bs 2))⟩ P) ∧
    IsCodec 144 (Jac.fromJacobianBytes 48 (FpV.fromBytesLE adx mont) FpC.B true)
      (Jac.toJacobianBytes (FpV.toBytesLE adx mont)) (fun a => ∃ P : E1 (FpV adx), a.Rep P)
      (fun bs => CanonicalLE 3 bs ∧ ∃ P : E1 (FpV adx), Jac.Rep ⟨coord mont (leVal (chunk bs 0)),
        coord mont (leVal (chunk bs 1)), coord mont (leVal (chunk bs 2))⟩ P) := by
  rw [FpC.B_eq]
  constructor
  · refine ((coord1BE mont).jacobian 4).congr (fun a => (Jac.isOnCurve_iff (goodCurve1 _) a).symm) (fun bs _ => ?_)
    exact and_congr canonical_three (Jac.isOnCurve_iff (goodCurve1 _) _).symm
  · refine ((coord1LE mont).jacobian 4).congr (fun a => (Jac.isOnCurve_iff (goodCurve1 _) a).symm) (fun bs _ => ?_)
    exact and_congr canonical_three (Jac.isOnCurve_iff (goodCurve1 _) _).symm

/-- C26, Jacobian form of `g2`: six groups of 48 bytes, big-endian with the coefficient of `u` first, little-endian
with it second. -/
theorem C26_jacobian_g2 (mont : Bool) :
    IsCodec 288 (Jac.fromJacobianBytes 96 (Fp2.fromBytesBE (FpV.fromBytesBE adx mont)) Fp2.B true)
      (Jac.toJacobianBytes (Fp2.toBytesBE (FpV.toBytesBE adx mont))) (fun a => ∃ P : E2 (FpV adx), a.Rep P)
      (fun bs => CanonicalBE 6 bs ∧ ∃ P : E2 (FpV adx), Jac.Rep
        ⟨⟨coord mont (beVal (chunk bs 1)), coord mont (beVal (chunk bs 0))⟩,
         ⟨coord mont (beVal (chunk bs 3)), coord mont (beVal (chunk bs 2))⟩,
         ⟨coord mont (beVal (chunk bs 5)), coord mont (beVal (chunk bs 4))⟩⟩ P) ∧
    IsCodec 288 (Jac.fromJacobianBytes 96 (Fp2.fromBytesLE (FpV.fromBytesLE adx mont)) Fp2.B true)
      (Jac.toJacobianBytes (Fp2.toBytesLE (FpV.toBytesLE adx mont))) (fun a => ∃ P : E2 (FpV adx), a.Rep P)
      (fun bs => CanonicalLE 6 bs ∧ ∃ P : E2 (FpV adx), Jac.Rep
        ⟨⟨coord mont (leVal (chunk bs 0)), coord mont (leVal (chunk bs 1))⟩,
         ⟨coord mont (leVal (chunk bs 2)), coord mont (leVal (chunk bs 3))⟩,
         ⟨coord mont (leVal (chunk bs 4)), coord mont (leVal (chunk bs 5))⟩⟩ P) := by
  rw [Fp2.B_eq]
  constructor
  · refine ((coord2BE mont).jacobian _).congr (fun a => (Jac.isOnCurve_iff (goodCurve2 _) a).symm) (fun bs _ => ?_)
    have := (Jac.isOnCurve_iff (goodCurve2 (FpV adx)) (⟨⟨coord mont (beVal (chunk (span bs 0 96) 1)), coord mont (beVal (chunk (span bs 0 96) 0))⟩,
         ⟨coord mont (beVal (chunk (span bs 96 96) 1)), coord mont (beVal (chunk (span bs 96 96) 0))⟩,
         ⟨coord mont (beVal (chunk (span bs 192 96) 1)), coord mont (beVal (chunk (span bs 192 96) 0))⟩⟩ : G2 (FpV adx)))
    refine and_congr canonical_six (Iff.trans ?_ this.symm)
    rw [pos0, pos0', pos1, pos1', pos2, pos2']
  · refine ((coord2LE mont).jacobian _).congr (fun a => (Jac.isOnCurve_iff (goodCurve2 _) a).symm) (fun bs _ => ?_)
    have := (Jac.isOnCurve_iff (goodCurve2 (FpV adx)) (⟨⟨coord mont (leVal (chunk (span bs 0 96) 0)), coord mont (leVal (chunk (span bs 0 96) 1))⟩,
         ⟨coord mont (leVal (chunk (span bs 96 96) 0)), coord mont (leVal (chunk (span bs 96 96) 1))⟩,
         ⟨coord mont (leVal (chunk (span bs 192 96) 0)), coord mont (leVal (chunk (span bs 192 96) 1))⟩⟩ : G2 (FpV adx)))
    refine and_congr canonical_six (Iff.trans ?_ this.symm)
    rw [pos0, pos0', pos1, pos1', pos2, pos2']

/-- C26, affine form of `g1`. -/
theorem C26_affine_g1 (mont : Bool) :
    IsAffineCodec (4 : FpV adx) 96 (Jac.fromAffineBytes 48 (FpV.fromBytesBE adx mont) FpC.B true)
      (Jac.toAffineBytes 48 (FpV.toBytesBE adx mont)) (CanonicalBE 2)
      (fun bs => coord mont (beVal (chunk bs 0))) (fun bs => coord mont (beVal (chunk bs 1))) ∧
    IsAffineCodec (4 : FpV adx) 96 (Jac.fromAffineBytes 48 (FpV.fromBytesLE adx mont) FpC.B true)
      (Jac.toAffineBytes 48 (FpV.toBytesLE adx mont)) (CanonicalLE 2)
      (fun bs => coord mont (leVal (chunk bs 0))) (fun bs => coord mont (leVal (chunk bs 1))) := by
  rw [FpC.B_eq]
  exact ⟨((coord1BE mont).isAffineCodec (enc1BE mont) (goodCurve1 _)).congr (fun _ => canonical_two)
      (fun _ => rfl) (fun _ => rfl),
    ((coord1LE mont).isAffineCodec (enc1LE mont) (goodCurve1 _)).congr (fun _ => canonical_two)
      (fun _ => rfl) (fun _ => rfl)⟩

/-- C26, affine form of `g2`. -/
theorem C26_affine_g2 (mont : Bool) :
    IsAffineCodec (4 * Fp2.xi : Fp2 (FpV adx)) 192
      (Jac.fromAffineBytes 96 (Fp2.fromBytesBE (FpV.fromBytesBE adx mont)) Fp2.B true)
      (Jac.toAffineBytes 96 (Fp2.toBytesBE (FpV.toBytesBE adx mont))) (CanonicalBE 4)
      (fun bs => ⟨coord mont (beVal (chunk bs 1)), coord mont (beVal (chunk bs 0))⟩)
      (fun bs => ⟨coord mont (beVal (chunk bs 3)), coord mont (beVal (chunk bs 2))⟩) ∧
    IsAffineCodec (4 * Fp2.xi : Fp2 (FpV adx)) 192
      (Jac.fromAffineBytes 96 (Fp2.fromBytesLE (FpV.fromBytesLE adx mont)) Fp2.B true)
      (Jac.toAffineBytes 96 (Fp2.toBytesLE (FpV.toBytesLE adx mont))) (CanonicalLE 4)
      (fun bs => ⟨coord mont (leVal (chunk bs 0)), coord mont (leVal (chunk bs 1))⟩)
      (fun bs => ⟨coord mont (leVal (chunk bs 2)), coord mont (leVal (chunk bs 3))⟩) := by
  rw [Fp2.B_eq]
  refine ⟨((coord2BE mont).isAffineCodec (enc2BE mont) (goodCurve2 _)).congr (fun _ => canonical_four (f := beVal))
      (fun bs => ?_) (fun bs => ?_),
    ((coord2LE mont).isAffineCodec (enc2LE mont) (goodCurve2 _)).congr (fun _ => canonical_four (f := leVal))
      (fun bs => ?_) (fun bs => ?_)⟩ <;>
  simp only [pos0, pos0', pos1, pos1']

/-- C26, the mode without the on-curve check (the default of the decoders): the strings with canonical coordinates
are accepted and the coordinates are taken over as they are. -/
theorem C26_unchecked (mont : Bool) (bs : List UInt8) :
    (bs.length = 144 → Jac.fromJacobianBytes 48 (FpV.fromBytesBE adx mont) FpC.B false bs =
      if beVal (chunk bs 0) < p ∧ beVal (chunk bs 1) < p ∧ beVal (chunk bs 2) < p then
        some ⟨coord mont (beVal (chunk bs 0)), coord mont (beVal (chunk bs 1)), coord mont (beVal (chunk bs 2))⟩
      else none) ∧
    (bs.length = 96 → Jac.fromAffineBytes 48 (FpV.fromBytesBE adx mont) FpC.B false bs =
      if beVal (chunk bs 0) < p ∧ beVal (chunk bs 1) < p then
        if coord mont (beVal (chunk bs 0)) = (0 : FpV adx) ∧ coord mont (beVal (chunk bs 1)) = (0 : FpV adx) then
          some ⟨0, 1, 0⟩
        else some ⟨coord mont (beVal (chunk bs 0)), coord mont (beVal (chunk bs 1)), 1⟩
      else none) :=
  ⟨fun hl => (coord1BE mont).jacobian_unchecked _ bs hl, fun hl => (coord1BE mont).affine_unchecked _ bs hl⟩

/-- A string that the checked affine decoder of `g1` accepts: the point `(0, 2)`. -/
example : (Jac.fromAffineBytes 48 (FpV.fromBytesBE adx true) FpC.B true
    (List.replicate 95 0 ++ [2])).isSome = true := by
  rw [(C26_affine_g1 adx true).1.accept _ rfl]
  have h0 : beVal (chunk (List.replicate 95 (0 : UInt8) ++ [2]) 0) = 0 := by decide +kernel
  have h1 : beVal (chunk (List.replicate 95 (0 : UInt8) ++ [2]) 1) = 2 := by decide +kernel
  refine ⟨fun i hi => ?_, Or.inr ?_⟩
  · rcases (by omega : i = 0 ∨ i = 1) with rfl | rfl
    · rw [h0]; decide +kernel
    · rw [h1]; decide +kernel
  · rw [h0, h1]
    exact two_sq_four

/-! ## C27 -/

/-- C27 (partial): for every finite point and all its coordinates, the compressed form is the one of the standard and
decodes to the point. Missing: the point at infinity, for which the statement is false (`C27_infinity_false`). -/
theorem C27_roundtrip_partial :
    (∀ (a : G1 (FpV adx)) (P : E1 (FpV adx)), a.Rep P → P ≠ 0 → IsCompressed1 P (G1.toCompressedBytesBE a) ∧
      ∃ a' : G1 (FpV adx), G1.fromCompressedBytesBE (G1.toCompressedBytesBE a) = some a' ∧ a'.Rep P) ∧
    (∀ (a : G2 (FpV adx)) (P : E2 (FpV adx)), a.Rep P → P ≠ 0 → IsCompressed2 P (G2.toCompressedBytesBE a) ∧
      ∃ a' : G2 (FpV adx), G2.fromCompressedBytesBE (G2.toCompressedBytesBE a) = some a' ∧ a'.Rep P) :=
  ⟨fun _ _ h h0 => ⟨G1.encode h h0, G1.decode_compressed (G1.encode h h0)⟩,
    fun _ _ h h0 => ⟨G2.encode h h0, G2.decode_compressed (G2.encode h h0)⟩⟩

example : ∃ (a : G1 (FpV adx)) (P : E1 (FpV adx)), a.Rep P ∧ P ≠ 0 := ⟨_, _, G1.one_rep, gen1_ne_zero _⟩
example : ∃ (a : G2 (FpV adx)) (P : E2 (FpV adx)), a.Rep P ∧ P ≠ 0 := ⟨_, _, G2.one_rep, gen2_ne_zero _⟩

/-- C27 is false at infinity: the compressed form of `zero()` lacks the infinity bit; on `g1` it decodes to a finite
point with `x = 0`. -/
theorem C27_infinity_false :
    (¬ IsCompressed1 (0 : E1 (FpV adx)) (G1.toCompressedBytesBE (Jac.zero : G1 (FpV adx)))) ∧
    (∃ (a : G1 (FpV adx)) (P : E1 (FpV adx)),
      G1.fromCompressedBytesBE (G1.toCompressedBytesBE (Jac.zero : G1 (FpV adx))) = some a ∧ a.Rep P ∧ P ≠ 0) ∧
    (¬ IsCompressed2 (0 : E2 (FpV adx)) (G2.toCompressedBytesBE (Jac.zero : G2 (FpV adx)))) ∧
    ¬ ∃ a : G2 (FpV adx),
      G2.fromCompressedBytesBE (G2.toCompressedBytesBE (Jac.zero : G2 (FpV adx))) = some a ∧ a.Rep (0 : E2 (FpV adx)) := by
  refine ⟨fun h => ?_, G1.zero_decodes, fun h => ?_, G2.zero_not_decodes⟩
  · have h1 : beVal _ = _ := h.2
    rw [G1.encode_zero.1] at h1
    revert h1; decide +kernel
  · have h1 : beVal _ = _ := h.2
    rw [G2.encode_zero.1] at h1
    revert h1; decide +kernel

/-- C27, exactly: a triple that stands for `P` is encoded in the standard form, and decodes to `P` again, exactly if `P`
is finite or the stored coordinates of infinity are zeros. (`zero()` stores `y = 1`, so it is not among them.) -/
theorem C27_exact :
    (∀ (a : G1 (FpV adx)) (P : E1 (FpV adx)), a.Rep P →
      (IsCompressed1 P (G1.toCompressedBytesBE a) ↔ P ≠ 0 ∨ (a.x = 0 ∧ a.y = 0)) ∧
      ((∃ a' : G1 (FpV adx), G1.fromCompressedBytesBE (G1.toCompressedBytesBE a) = some a' ∧ a'.Rep P) ↔
        P ≠ 0 ∨ (a.x = 0 ∧ a.y = 0))) ∧
    (∀ (a : G2 (FpV adx)) (P : E2 (FpV adx)), a.Rep P →
      (IsCompressed2 P (G2.toCompressedBytesBE a) ↔ P ≠ 0 ∨ (a.x = 0 ∧ a.y = 0)) ∧
      ((∃ a' : G2 (FpV adx), G2.fromCompressedBytesBE (G2.toCompressedBytesBE a) = some a' ∧ a'.Rep P) ↔
        P ≠ 0 ∨ (a.x = 0 ∧ a.y = 0))) :=
  ⟨fun _ _ h => G1.roundtrip_iff h, fun _ _ h => G2.roundtrip_iff h⟩

example : ∃ a : G1 (FpV adx), a.Rep (0 : E1 (FpV adx)) ∧ a.x = 0 ∧ a.y = 0 := ⟨⟨0, 0, 0⟩, rfl, rfl, rfl⟩
example : ∃ a : G2 (FpV adx), a.Rep (0 : E2 (FpV adx)) ∧ ¬ (a.x = 0 ∧ a.y = 0) :=
  ⟨⟨0, 1, 0⟩, rfl, fun h => one_ne_zero h.2⟩

/-! ## C28 -/

/-- C28, exactly: the decoders accept a string for the point `P` exactly if it can be read as `P` leniently, that is,
with anything behind two set top bits, or with a first coordinate of any 381 bits. -/
theorem C28_exact (bs : List UInt8) :
    (bs.length = 48 → ∀ P : E1 (FpV adx),
      (∃ a : G1 (FpV adx), G1.fromCompressedBytesBE bs = some a ∧ a.Rep P) ↔ Lenient1 P bs) ∧
    (bs.length = 96 → ∀ P : E2 (FpV adx),
      (∃ a : G2 (FpV adx), G2.fromCompressedBytesBE bs = some a ∧ a.Rep P) ↔ Lenient2 P bs) :=
  ⟨fun hl P => G1.decode_exact bs hl P, fun hl P => G2.decode_exact bs hl P⟩

/-- C28: a finite point has its standard form and at most one other accepted form, in which `p` is added to the first
coordinate; it exists if there is room for the sum in 381 bits. -/
theorem C28_forms (bs : List UInt8) :
    (∀ P : E1 (FpV adx), P ≠ 0 → (Lenient1 P bs ↔ IsCompressed1 P bs ∨ ∃ bs', IsCompressed1 P bs' ∧ bs.length = 48 ∧
      beVal bs' % 2 ^ 381 + p < 2 ^ 381 ∧ beVal bs = beVal bs' + p)) ∧
    (∀ P : E2 (FpV adx), P ≠ 0 → (Lenient2 P bs ↔ IsCompressed2 P bs ∨ ∃ bs', IsCompressed2 P bs' ∧ bs.length = 96 ∧
      beVal bs' / 2 ^ 384 % 2 ^ 381 + p < 2 ^ 381 ∧ beVal bs = beVal bs' + p * 2 ^ 384)) :=
  ⟨fun _ h => Lenient1.finite h, fun _ h => Lenient2.finite h⟩

/-- C28: an accepted string is reproduced by the encoder exactly if its infinity bit is clear and its first coordinate is
below `p`. -/
theorem C28_reencode (bs : List UInt8) :
    (∀ a : G1 (FpV adx), bs.length = 48 → G1.fromCompressedBytesBE bs = some a →
      (G1.toCompressedBytesBE a = bs ↔ beVal bs % 2 ^ 383 < 2 ^ 382 ∧ beVal bs % 2 ^ 381 < p)) ∧
    (∀ a : G2 (FpV adx), bs.length = 96 → G2.fromCompressedBytesBE bs = some a →
      (G2.toCompressedBytesBE a = bs ↔ beVal (chunk bs 0) % 2 ^ 383 < 2 ^ 382 ∧ beVal (chunk bs 0) % 2 ^ 381 < p)) :=
  ⟨fun _ hl h => G1.reencode_iff hl h, fun _ hl h => G2.reencode_iff hl h⟩

/-- C28: whatever the decoders accept is a point of the curve. -/
theorem C28_on_curve (bs : List UInt8) :
    (∀ a : G1 (FpV adx), bs.length = 48 → G1.fromCompressedBytesBE bs = some a → ∃ P : E1 (FpV adx), a.Rep P) ∧
    (∀ a : G2 (FpV adx), bs.length = 96 → G2.fromCompressedBytesBE bs = some a → ∃ P : E2 (FpV adx), a.Rep P) :=
  ⟨fun _ hl h => let ⟨P, hP, _⟩ := G1.decode_point hl h; ⟨P, hP⟩,
    fun _ hl h => let ⟨P, hP, _⟩ := G2.decode_point hl h; ⟨P, hP⟩⟩

/-- C28: the compressed form of every point, infinity included, is accepted and decodes to that point; the form is
unique. -/
theorem C28_complete (bs : List UInt8) :
    (∀ P : E1 (FpV adx), IsCompressed1 P bs →
      (∃ a : G1 (FpV adx), G1.fromCompressedBytesBE bs = some a ∧ a.Rep P) ∧
      ∀ bs', IsCompressed1 P bs' → bs' = bs) ∧
    (∀ P : E2 (FpV adx), IsCompressed2 P bs →
      (∃ a : G2 (FpV adx), G2.fromCompressedBytesBE bs = some a ∧ a.Rep P) ∧
      ∀ bs', IsCompressed2 P bs' → bs' = bs) :=
  ⟨fun _ h => ⟨G1.decode_compressed h, fun _ h' => h'.unique h⟩,
    fun _ h => ⟨G2.decode_compressed h, fun _ h' => h'.unique h⟩⟩

/-- C28 (partial): an accepted string with clear infinity bit and masked coordinate below `p` is the compressed form
of the decoded point, and encoding gives it back. Missing: coordinates in `[p, 2^381)` and strings with the infinity
bit, for which the statement is false (`C28_canonical_false`). -/
theorem C28_canonical_partial (bs : List UInt8) :
    (∀ a : G1 (FpV adx), bs.length = 48 → G1.fromCompressedBytesBE bs = some a →
      beVal bs % 2 ^ 383 < 2 ^ 382 → beVal bs % 2 ^ 381 < p →
      ∃ P : E1 (FpV adx), a.Rep P ∧ IsCompressed1 P bs ∧ G1.toCompressedBytesBE a = bs) ∧
    (∀ a : G2 (FpV adx), bs.length = 96 → G2.fromCompressedBytesBE bs = some a →
      beVal (chunk bs 0) % 2 ^ 383 < 2 ^ 382 → beVal (chunk bs 0) % 2 ^ 381 < p →
      ∃ P : E2 (FpV adx), a.Rep P ∧ IsCompressed2 P bs ∧ G2.toCompressedBytesBE a = bs) :=
  ⟨fun _ hl h h1 h2 => G1.decode_canonical hl h h1 h2, fun _ hl h h1 h2 => G2.decode_canonical hl h h1 h2⟩

/-- The 48 bytes `0x80 00 … 00`, a string accepted by the decoder of `g1` that meets the hypotheses of
`C28_canonical_partial`. -/
example : ∃ (bs : List UInt8) (a : G1 (FpV adx)), bs.length = 48 ∧ G1.fromCompressedBytesBE bs = some a ∧
    beVal bs % 2 ^ 383 < 2 ^ 382 ∧ beVal bs % 2 ^ 381 < p := by
  obtain ⟨a, _, h, _, _⟩ := G1.zero_decodes (K := FpV adx)
  refine ⟨_, a, G1.encode_zero.2, h, ?_, ?_⟩
  · rw [G1.encode_zero.1]; decide +kernel
  · rw [G1.encode_zero.1]; decide +kernel

/-- C28 (validity): the test `isValid()` in the compressed decoders is made after the conversion to Montgomery form
and succeeds for every content of the six words. -/
theorem C28_validity_check_vacuous (e : Fp) : (e.toMont adx).isValid = true :=
  (Fp.isValid_iff _).2 (Fp.toMont_rep adx e).1

/-- C28 is false as stated: two different strings are accepted and decode to the same triple - the big-endian forms
of `2^383` and `2^383 + p` on `g1`; and every string with the two top bits set, whatever follows, decodes to
`zero()`, on both groups. -/
theorem C28_canonical_false :
    (∃ (bs bs' : List UInt8) (a : G1 (FpV adx)), bs.length = 48 ∧ bs'.length = 48 ∧ bs ≠ bs' ∧
      beVal bs = 2 ^ 383 ∧ beVal bs' = 2 ^ 383 + p ∧
      G1.fromCompressedBytesBE bs = some a ∧ G1.fromCompressedBytesBE bs' = some a) ∧
    (∀ bs : List UInt8, bs.length = 48 → 2 ^ 383 + 2 ^ 382 ≤ beVal bs →
      G1.fromCompressedBytesBE bs = some (⟨0, 1, 0⟩ : G1 (FpV adx))) ∧
    (∀ bs : List UInt8, bs.length = 96 → (2 ^ 383 + 2 ^ 382) * 2 ^ 384 ≤ beVal bs →
      G2.fromCompressedBytesBE bs = some (⟨0, 1, 0⟩ : G2 (FpV adx))) :=
  ⟨G1.not_canonical, fun _ => G1.infinity_bits, fun _ => G2.infinity_bits⟩

end Bls.Props
