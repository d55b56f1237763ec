import Verif.Proof.Overlay

/-!
# C103: serialisation into memory that overlaps the object

A memory is a function from addresses to bytes. `Wrote f f' a v`: from `f` to `f'` the bytes from `a` on have become `v` and no
other byte has changed. What a function with an argument `out` should write is what the function of the same name without `out`
returns for the object as it is before the call.
-/

namespace Bls.Overlay
open Rfc (bytes Wrote)

/-- Little-endian codecs of word arrays: right if the destination does not begin inside the source, after its first byte. In
particular they are right in place. -/
theorem C103_scalar_le (N inp out : ℕ) (f : ℕ → UInt8) (h : out ≤ inp ∨ inp + 8 * N ≤ out) :
    Wrote f (toBytesLE N inp out f) out (bytes f inp (8 * N)) ∧ Wrote f (fromBytesLE N inp out f) out (bytes f inp (8 * N)) := by
  rw [toBytesLE_eq f h, fromBytesLE_eq f h]
  exact ⟨wrote_store f out _, wrote_store f out _⟩

/-- Big-endian codecs of word arrays: right if at most one byte is in common (`toBytesBE`), or one word (`fromBytesBE`). -/
theorem C103_scalar_be (N inp out : ℕ) (f : ℕ → UInt8) :
    ((inp + 8 * N ≤ out + 1 ∨ out + 8 * N ≤ inp + 1) → Wrote f (toBytesBE N inp out f) out (bytes f inp (8 * N)).reverse) ∧
    ((inp + 8 * N ≤ out + 8 ∨ out + 8 * N ≤ inp + 8) → Wrote f (fromBytesBE N inp out f) out (bytes f inp (8 * N)).reverse) := by
  constructor
  · intro h
    rw [toBytesBE_eq f h]
    exact wrote_store f out _
  · intro h
    rw [fromBytesBE_eq f h]
    exact wrote_store f out _

/-- One byte in common, and one word in common. -/
example : bytes (toBytesBE 1 0 7 fun x => UInt8.ofNat x) 7 8 = [7, 6, 5, 4, 3, 2, 1, 0] ∧
    bytes (fromBytesBE 2 8 0 fun x => UInt8.ofNat x) 0 16 = [23, 22, 21, 20, 19, 18, 17, 16, 15, 14, 13, 12, 11, 10, 9, 8] := by
  decide +kernel

/-- Big-endian codecs of word arrays in place: the lower half is overwritten by the upper half in reverse, the upper half stays, and
the lower half is lost. `fromBytesBE` counts the middle word of an odd number to both. -/
theorem C103_scalar_be_in_place (N a : ℕ) (f : ℕ → UInt8) :
    Wrote f (toBytesBE N a a f) a (bytes f (a + 4 * N) (4 * N)).reverse ∧
    Wrote f (fromBytesBE N a a f) a (bytes f (a + 8 * (N / 2)) (8 * (N - N / 2))).reverse := by
  rw [toBytesBE_self, fromBytesBE_self]
  exact ⟨wrote_store f a _, wrote_store f a _⟩

/-- The memory of the examples: the byte at `x` is `x` modulo 256. -/
def ramp : ℕ → UInt8 := fun x => UInt8.ofNat x

example : bytes (toBytesBE 1 0 0 ramp) 0 8 = [7, 6, 5, 4, 4, 5, 6, 7] ∧ bytes (fromBytesBE 1 0 0 ramp) 0 8 = [7, 6, 5, 4, 3, 2, 1, 0] ∧
    bytes (fromBytesBE 2 0 0 ramp) 0 16 = [15, 14, 13, 12, 11, 10, 9, 8, 8, 9, 10, 11, 12, 13, 14, 15] := by decide +kernel

example : bytes (toBytesLE 1 3 0 ramp) 0 12 = [3, 4, 5, 6, 7, 8, 9, 10, 8, 9, 10, 11] := by decide +kernel

/-- The condition of `C103_scalar_le` is needed. -/
example : bytes (toBytesLE 1 0 1 ramp) 1 8 ≠ bytes ramp 0 8 := by decide +kernel

/-- `fp::toBytesBE` and `fp::toBytesLE`: right wherever `out` lies with the default option, else as the codecs of word arrays. -/
theorem C103_fp (adx mont : Bool) (this out : ℕ) (f : ℕ → UInt8) :
    ((mont = true ∨ this + 48 ≤ out + 1 ∨ out + 48 ≤ this + 1) →
      Wrote f (fpBE adx mont this out f) out ((fpAt f this).toBytesBE adx mont)) ∧
    ((mont = true ∨ out ≤ this ∨ this + 48 ≤ out) →
      Wrote f (fpLE adx mont this out f) out ((fpAt f this).toBytesLE adx mont)) := by
  constructor
  · intro h
    rw [fpBE_eq f h]
    exact wrote_store f out _
  · intro h
    rw [fpLE_eq f h]
    exact wrote_store f out _

/-- In place with the default option, for the element 1 (`R1`): the first byte of the result is 1. -/
example : bytes (fpLE true true 0 0 (mem (Scalar.toBytesLE Fp.R1.words))) 0 48 = 1 :: List.replicate 47 0 := by
  rw [fpLE_eq _ (Or.inl rfl)]
  decide +kernel

/-- `fp::toBytesBE(…, from_mont::no)` into the element itself: the lower 24 bytes are lost. -/
theorem C103_fp_in_place (adx : Bool) (a : ℕ) (f : ℕ → UInt8) :
    Wrote f (fpBE adx false a a f) a (bytes f (a + 24) 24).reverse := (C103_scalar_be_in_place 6 a f).1

example : bytes (fpBE true false 0 0 ramp) 0 48 = (bytes ramp 24 24).reverse ++ bytes ramp 24 24 := by
  have h := C103_fp_in_place true 0 ramp
  rw [show 48 = 24 + 24 from rfl, bytes_add]
  refine congrArg₂ _ h.1 (List.map_congr_left fun i hi => h.2 _ (Or.inr ?_))
  rw [List.length_reverse, bytes_length]
  omega

/-- … which differs from the encoding of the element, whatever its address. -/
theorem C103_fp_in_place_false (adx : Bool) (a : ℕ) :
    ∃ f, ¬ Wrote f (fpBE adx false a a f) a ((fpAt f a).toBytesBE adx false) := by
  refine ⟨dot (a + 0), fun h => ?_⟩
  have h1 := (C103_fp_in_place adx a (dot (a + 0))).2 (a + 47) (Or.inr (by rw [List.length_reverse, bytes_length]; omega))
  have e : fpAt (dot (a + 0)) a = fpAt (dot 0) 0 := fpAt_congr fun i _ => dot_at a 0 i
  rw [e] at h
  have h2 := congrArg (fun l => l.getD 47 0) h.1
  have l : ((fpAt (dot 0) 0).toBytesBE adx false).length = 48 := (fp_length adx false _).1
  rw [l] at h2
  rw [List.getD_eq_getElem _ _ (by rw [bytes_length]; omega)] at h2
  simp only [bytes, List.getElem_map, List.getElem_range] at h2
  rw [h1, dot_at] at h2
  exact fp_differs adx h2

example : (fpAt (dot 0) 0).toBytesBE true false = List.replicate 47 0 ++ [1] ∧ dot 0 47 = 0 := by decide +kernel

/-- `fp2`, `fp6` and `fp12`, little-endian, with both options: right if `out` does not begin inside the object, after its first byte.
In particular they are right in place. -/
theorem C103_tower_le (adx mont : Bool) (this out : ℕ) (f : ℕ → UInt8) :
    ((out ≤ this ∨ this + 96 ≤ out) →
      Wrote f (fp2LE adx mont this out f) out ((fp2At f this).toBytesLE (Fp.toBytesLE adx mont))) ∧
    ((out ≤ this ∨ this + 288 ≤ out) →
      Wrote f (fp6LE adx mont this out f) out ((fp6At f this).toBytesLE (Fp.toBytesLE adx mont))) ∧
    ((out ≤ this ∨ this + 576 ≤ out) →
      Wrote f (fp12LE adx mont this out f) out ((fp12At f this).toBytesLE (Fp.toBytesLE adx mont))) := by
  refine ⟨fun h => ?_, fun h => ?_, fun h => ?_⟩
  · have e := two (fpLE_reads adx mont) (a := this) (b := this + 48) (out := out) f (by omega)
    exact wrote_of e
  · have e := three (fp2LE_reads adx mont) (a := this) (b := this + 96) (c := this + 192) (out := out) f (by omega) (by omega)
    exact wrote_of e
  · have e := two (fp6LE_reads adx mont) (a := this) (b := this + 288) (out := out) f (by omega)
    exact wrote_of e

example : bytes (fp6LE true false 0 0 ramp) 0 288 = bytes ramp 0 288 := by
  have h := ((C103_tower_le true false 0 0 ramp).2.1 (Or.inl le_rfl)).1
  have e : (fp6At ramp 0).toBytesLE (Fp.toBytesLE true false) = bytes ramp 0 288 := by decide +kernel
  have l : ((fp6At ramp 0).toBytesLE (Fp.toBytesLE true false)).length = 288 := (fp6_length true false _).2
  rw [l] at h
  exact h.trans e

/-- `fp2`, `fp6` and `fp12`, big-endian, with both options: right if `out` and the object have at most one component in common. -/
theorem C103_tower_be (adx mont : Bool) (this out : ℕ) (f : ℕ → UInt8) :
    ((this + 48 ≤ out ∨ out + 48 ≤ this) →
      Wrote f (fp2BE adx mont this out f) out ((fp2At f this).toBytesBE (Fp.toBytesBE adx mont))) ∧
    ((this + 192 ≤ out ∨ out + 192 ≤ this) →
      Wrote f (fp6BE adx mont this out f) out ((fp6At f this).toBytesBE (Fp.toBytesBE adx mont))) ∧
    ((this + 288 ≤ out ∨ out + 288 ≤ this) →
      Wrote f (fp12BE adx mont this out f) out ((fp12At f this).toBytesBE (Fp.toBytesBE adx mont))) := by
  refine ⟨fun h => ?_, fun h => ?_, fun h => ?_⟩
  · have e := two (fpBE_reads adx mont) (a := this + 48) (b := this) (out := out) f (by omega)
    exact wrote_of e
  · have e := three (fp2BE_reads adx mont) (a := this + 192) (b := this + 96) (c := this) (out := out) f (by omega) (by omega)
    exact wrote_of e
  · have e := two (fp6BE_reads adx mont) (a := this + 288) (b := this) (out := out) f (by omega)
    exact wrote_of e

/-- The span begins at `c1`. -/
example : bytes (fp2BE true false 0 48 ramp) 48 96 = (bytes ramp 0 96).reverse := by
  have h := ((C103_tower_be true false 0 48 ramp).1 (Or.inl le_rfl)).1
  have e : (fp2At ramp 0).toBytesBE (Fp.toBytesBE true false) = (bytes ramp 0 96).reverse := by decide +kernel
  rw [e] at h
  exact h

/-- `fp2`, `fp6` and `fp12`, big-endian, into the object itself: wrong with both options, whatever the address. -/
theorem C103_tower_in_place_false (adx mont : Bool) (a : ℕ) :
    (∃ f, ¬ Wrote f (fp2BE adx mont a a f) a ((fp2At f a).toBytesBE (Fp.toBytesBE adx mont))) ∧
    (∃ f, ¬ Wrote f (fp6BE adx mont a a f) a ((fp6At f a).toBytesBE (Fp.toBytesBE adx mont))) ∧
    (∃ f, ¬ Wrote f (fp12BE adx mont a a f) a ((fp12At f a).toBytesBE (Fp.toBytesBE adx mont))) := by
  refine ⟨⟨dot (a + 48), fun h => ?_⟩, ⟨dot (a + 192), fun h => ?_⟩, ⟨dot (a + 288), fun h => ?_⟩⟩
  · rw [fp2_self, dot2] at h
    have := wrote_unique h (by
      rw [Fp2.toBytesBE, List.length_append, List.length_append, (fp_length adx mont _).1, (fp_length adx mont _).1,
        (fp_length adx mont _).1])
    exact fp2_differs adx mont (List.append_cancel_left this)
  · rw [fp6_self, dot6] at h
    have := wrote_unique h (by
      rw [Fp6.toBytesBE]
      simp only [List.length_append, (fp2_length adx mont _).1])
    exact fp6_differs adx mont (List.append_cancel_left (List.append_cancel_left this))
  · have e : fp12At (dot (a + 288)) a = fp12At (dot 288) 0 := by rw [fp12At, fp12At, dot6, dot6', Nat.zero_add]
    rw [fp12_self, e] at h
    have := wrote_unique h (by
      rw [Fp12.toBytesBE]
      simp only [List.length_append, (fp6_length adx mont _).1])
    exact fp12_differs adx mont (List.append_cancel_left this)

example : (fp2At (dot 48) 0).toBytesBE (Fp.toBytesBE true false) = List.replicate 47 0 ++ 1 :: List.replicate 48 0 ∧
    bytes (fp2BE true false 0 0 (dot 48)) 0 96 = List.replicate 47 0 ++ 1 :: 1 :: List.replicate 47 0 := by
  rw [fp2_self]
  decide +kernel

/-- `g1::toJacobianBytesBE/LE` and `g2::toJacobianBytesBE/LE` with both options: right if `out` does not begin inside the object,
after its first byte. In particular they are right in place, in both byte orders. -/
theorem C103_jacobian (adx mont : Bool) (this out : ℕ) (f : ℕ → UInt8) :
    ((out ≤ this ∨ this + 144 ≤ out) →
      Wrote f (g1Jacobian (Fp.toBytesBE adx mont) this out f) out (Jac.toJacobianBytes (Fp.toBytesBE adx mont) (g1At f this)) ∧
      Wrote f (g1Jacobian (Fp.toBytesLE adx mont) this out f) out (Jac.toJacobianBytes (Fp.toBytesLE adx mont) (g1At f this))) ∧
    ((out ≤ this ∨ this + 288 ≤ out) →
      Wrote f (g2Jacobian (Fp2.toBytesBE (Fp.toBytesBE adx mont)) this out f) out
        (Jac.toJacobianBytes (Fp2.toBytesBE (Fp.toBytesBE adx mont)) (g2At f this)) ∧
      Wrote f (g2Jacobian (Fp2.toBytesLE (Fp.toBytesLE adx mont)) this out f) out
        (Jac.toJacobianBytes (Fp2.toBytesLE (Fp.toBytesLE adx mont)) (g2At f this))) := by
  refine ⟨fun h => ⟨?_, ?_⟩, fun h => ⟨?_, ?_⟩⟩
  · have e := three (fpBE_reads adx mont) (a := this) (b := this + 48) (c := this + 96) (out := out) f (by omega) (by omega)
    exact wrote_of e
  · have e := three (fpLE_reads adx mont) (a := this) (b := this + 48) (c := this + 96) (out := out) f (by omega) (by omega)
    exact wrote_of e
  · have e := three (fp2BE_reads adx mont) (a := this) (b := this + 96) (c := this + 192) (out := out) f (by omega) (by omega)
    exact wrote_of e
  · have e := three (fp2LE_reads adx mont) (a := this) (b := this + 96) (c := this + 192) (out := out) f (by omega) (by omega)
    exact wrote_of e

example : bytes (g1Jacobian (Fp.toBytesBE true false) 0 0 ramp) 0 144 =
    (bytes ramp 0 48).reverse ++ ((bytes ramp 48 48).reverse ++ (bytes ramp 96 48).reverse) := by
  have h := ((C103_jacobian true false 0 0 ramp).1 (Or.inl le_rfl)).1.1
  have e : Jac.toJacobianBytes (Fp.toBytesBE true false) (g1At ramp 0) =
      (bytes ramp 0 48).reverse ++ ((bytes ramp 48 48).reverse ++ (bytes ramp 96 48).reverse) := by decide +kernel
  rw [e] at h
  exact h

end Bls.Overlay
