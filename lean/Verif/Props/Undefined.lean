import Verif.Proof.Undefined
import Verif.Props.Keys
import Verif.Props.Pairing
import Verif.Props.Scalar
import Verif.Props.Division
import Verif.Props.Bilinear
import Verif.Props.Hex

/-!
# C51: undefined behaviour

`none` is a read or write outside a buffer, a shift by 64 or more, a division by zero or a read of uninitialised memory. Every
theorem states exactly when a call has this outcome, or that it never has.
-/

namespace Bls.Props
open Bls Sig Pairing

attribute [local irreducible] p q hEff2

variable {adx : Bool} {σ : Type}

/-- C51: `hexToBytes(s)` reads past the end exactly for `""` and `"0"`; `hexToBytes<N>(s)` exactly when the digits after an
optional prefix, with the terminating zero, are fewer than `2 N`. -/
theorem C51_hex (s : List UInt8) (n : ℕ) : (hexToBytes s = none ↔ s = [] ∨ s = [48]) ∧
    (hexToBytesN n s = none ↔ (if [48, 120] <+: s then s.length - 2 else s.length) + 1 < 2 * n) :=
  ⟨(C16_odd s).2, hexToBytesN_none n s⟩

/-- Three digits for two bytes are read together with the terminating zero, two digits are too few. -/
example : hexToBytesN 2 [49, 50, 51] ≠ none ∧ hexToBytesN 2 [49, 50] = none := by decide +kernel

/-- C51: the tables of `fp12::frobeniusMap` are read outside exactly for powers of 12 and more. -/
theorem C51_frobenius (x : Fp12 (FpV adx)) (k : ℕ) :
    (x.frobeniusMap k = none ↔ 12 ≤ k) ∧ (x.frobeniusMapAssign k = none ↔ 12 ≤ k) := by
  refine ⟨⟨fun h => ?_, Fp12.frobeniusMap_none x k⟩, ⟨fun h => ?_, Fp12.frobeniusMapAssign_none x k⟩⟩
  · by_contra hk
    revert h
    unfold Fp12.frobeniusMap
    dsimp only
    split
    · simp
    · split
      · simp
      · have hl : k < (Fp12.frobeniusCoeffs12 : List (Fp2 (FpV adx))).length := by
          rw [Fp12.frobeniusCoeffs12, List.length_map]
          exact lt_of_lt_of_le (not_le.1 hk) (by decide)
        rw [List.getElem?_eq_getElem hl]
        simp
  · by_contra hk
    rw [Fp12.frobeniusMapAssign_eq x k (not_le.1 hk)] at h
    cases h

/-- C51: `miller_loop` reads outside its vectors exactly when there are no pairs; `calculate` and `final_exponentiation`
never do. -/
theorem C51_pairing (l : List (G1 (FpV adx) × G2 (FpV adx))) (y : Option (σ → σ)) (s : σ) (f : Fp12 (FpV adx)) :
    (millerLoop l y s = none ↔ l = []) ∧ calculate l y s ≠ none ∧ finalExponentiation f ≠ none := by
  refine ⟨⟨fun h => ?_, ?_⟩, ?_, ?_⟩
  · by_contra hl
    rw [millerLoop_eq l hl y s] at h
    cases h
  · rintro rfl
    rfl
  · rw [calculate_eq]
    exact Option.some_ne_none _
  · rw [finalExponentiation_eq]
    exact Option.some_ne_none _

/-- C51: `scalar::multiply` writes outside its result exactly when the result has fewer words than the factors together. -/
theorem C51_multiply (nc : ℕ) (a b : List UInt64) (ha : a ≠ []) (hb : b ≠ []) :
    Scalar.multiply nc a b = none ↔ nc < a.length + b.length := C13_multiply_bounds nc a b ha hb

example : Scalar.multiply 3 [1, 2] [3, 4] = none := (C51_multiply 3 _ _ (by decide) (by decide)).2 (by decide)

/-- C51: the bit loops over a scalar (`exp`, `scale`) read inside it. -/
theorem C51_bits (s : List UInt64) (i : ℕ) (h : i < Scalar.bitLength s) : i / 64 < s.length := Scalar.bit_index_lt s h

example : 64 / 64 < ([5, 1, 0] : List UInt64).length := C51_bits [5, 1, 0] 64 (by decide +kernel)

/-- C51: `fp::inverse` writes `fpPower` inside the array, for every argument. -/
theorem C51_inverse (x : Fp) (hx : x.isZero = false) (r : Fp) (k : ℕ)
    (h : Fp.invLoop 768 MODULUS x ⟨1, 0, 0, 0, 0, 0⟩ ⟨0, 0, 0, 0, 0, 0⟩ 0 = some (r, k)) :
    (2 * 384 - if k ≤ 384 then k + 384 else k) / 64 < 6 := Fp.inverse_power_lt x hx r k h

/-- The inverse of `R mod p`. -/
example : ∃ r k, Fp.invLoop 768 MODULUS Fp.R1 ⟨1, 0, 0, 0, 0, 0⟩ ⟨0, 0, 0, 0, 0, 0⟩ 0 = some (r, k) ∧
    (2 * 384 - if k ≤ 384 then k + 384 else k) / 64 < 6 := by
  have h : (Fp.invLoop 768 MODULUS Fp.R1 ⟨1, 0, 0, 0, 0, 0⟩ ⟨0, 0, 0, 0, 0, 0⟩ 0).isSome = true := by decide +kernel
  obtain ⟨⟨r, k⟩, h⟩ := Option.isSome_iff_exists.1 h
  exact ⟨r, k, h, C51_inverse _ (by decide +kernel) r k h⟩

/-- C51: `weightedSum` shifts by at most 23 bits and writes inside its buckets, for every number of points. -/
theorem C51_weightedSum (n j : ℕ) (s : List UInt64) : Jac.windowBits n ≤ 23 ∧
    (Jac.windowIndex (Jac.windowBits n) j s ≠ 0 → Jac.windowIndex (Jac.windowBits n) j s - 1 < 2 ^ Jac.windowBits n - 1) := by
  refine ⟨Jac.windowBits_le n, fun h => ?_⟩
  have := Jac.windowIndex_lt (Jac.windowBits_le n) j s
  omega

/-- C51: the divisions by the moduli are defined. -/
theorem C51_modPrime (k : List UInt64) (hk : 6 ≤ k.length) : Fp.modPrime adx k ≠ none := by
  obtain ⟨x, h, -⟩ := C15_modPrime adx k hk
  rw [h]
  exact Option.some_ne_none _

example : Fp.modPrime adx [1, 2, 3, 4, 5, 6, 7] ≠ none := C51_modPrime _ (by decide)

/-- C51: `fromMessage`. A length of `2^31` to `2^32 - 1` modulo `2^32` becomes a negative `int`; a tag longer than 255 leaves
the buffer uninitialised. -/
theorem C51_fromMessage (msg dst : List UInt8) : (fromMessage msg dst : Option (G2 (FpV adx))) = none ↔
    2 ^ 31 ≤ msg.length % 2 ^ 32 ∨ 255 < dst.length % 2 ^ 32 := fromMessage_none msg dst

example : ¬ (2 ^ 31 ≤ (List.replicate 100 (0 : UInt8)).length % 2 ^ 32 ∨ 255 < (List.replicate 255 (0 : UInt8)).length % 2 ^ 32) ∧
    255 < (List.replicate 256 (0 : UInt8)).length % 2 ^ 32 := by
  simp only [List.length_replicate]
  decide

/-- C51: `sign`, `verify` and `pop_fast_aggregate_verify` are undefined exactly for messages whose length is a negative `int`. -/
theorem C51_verify (sk : List UInt64) (pk : G1 (FpV adx)) (pks : List (G1 (FpV adx))) (m : List UInt8) (s : G2 (FpV adx)) :
    ((sign sk m : Option (G2 (FpV adx))) = none ↔ 2 ^ 31 ≤ m.length % 2 ^ 32) ∧
    (verify pk m s = none ↔ 2 ^ 31 ≤ m.length % 2 ^ 32) ∧
    (popFastAggregateVerify pks m s = none ↔ pks ≠ [] ∧ 2 ^ 31 ≤ m.length % 2 ^ 32) := by
  refine ⟨?_, verify_none pk m s, ?_⟩
  · rw [sign, Option.map_eq_none_iff, hash_none]
  · unfold popFastAggregateVerify
    cases pks with
    | nil => simp
    | cons a l =>
      rw [if_neg (by simp), verify_none]
      simp

/-- C51: `pop_prove` and `pop_verify` never have undefined behaviour. -/
theorem C51_pop (sk : List UInt64) (pk : G1 (FpV adx)) (s : G2 (FpV adx)) :
    (popProve sk : Option (G2 (FpV adx))) ≠ none ∧ popVerify pk s ≠ none := by
  constructor
  · obtain ⟨_, _, s, e, _⟩ := popProve_rep (K := FpV adx) sha_spec sk
    rw [e]
    exact Option.some_ne_none _
  · obtain ⟨_, _, b, e, _⟩ := popVerify_iff (K := FpV adx) sha_spec pk s
    rw [e]
    exact Option.some_ne_none _

/-- C51: `aggregate_verify` is undefined exactly when it reaches a message whose length is a negative `int`: the signature is
valid, the lists have equal lengths, the messages differ if that is asked for, and the keys up to that message are valid. -/
theorem C51_aggregateVerify (pks : List (G1 (FpV adx))) (ms : List (List UInt8)) (s : G2 (FpV adx)) (dup : Bool) :
    aggregateVerify pks ms s dup = none ↔ Member2 s ∧ pks.length = ms.length ∧ (dup = true → ms.Nodup) ∧
      ∃ i : ℕ, (∃ m : List UInt8, ms[i]? = some m ∧ 2 ^ 31 ≤ m.length % 2 ^ 32) ∧
        ∀ j ≤ i, ∀ pk, pks[j]? = some pk → Member1 pk := aggregateVerify_none pks ms s dup

/-- C51: the key functions never have undefined behaviour. -/
theorem C51_keys (junk0 junk1 junk : List UInt8) (h0 : junk0.length = 8160) (h1 : junk1.length = 8160) (hj : junk.length = 48)
    (seed : List UInt8) (parent : List UInt64) (hp : parent.length = 4) (index : UInt32) (fuel : ℕ) (bs : List UInt8)
    (hb : bs.length = 32) (mode : Bool) :
    Keys.secretKey junk fuel seed ≠ none ∧ Keys.deriveChildSk junk0 junk1 junk fuel parent index ≠ none ∧
    Keys.skFromBytes bs mode ≠ none := by
  refine ⟨?_, (C38_deriveChildSk sha_spec junk0 junk1 junk h0 h1 hj parent hp index).2.1 fuel, ?_⟩
  · by_cases hs : 32 ≤ seed.length
    · exact (C38_secretKey sha_spec junk hj seed hs).1 fuel
    · rw [C38_short_seed junk fuel seed (not_le.1 hs)]
      exact Option.some_ne_none _
  · obtain ⟨⟨_, e1, _⟩, ⟨_, e2, _⟩⟩ := C39_fromBytes bs hb
    cases mode
    · rw [e2]; exact Option.some_ne_none _
    · rw [e1]; exact Option.some_ne_none _

example : (List.replicate 48 (0 : UInt8)).length = 48 ∧ ([1, 2, 3, 4] : List UInt64).length = 4 := by decide

end Bls.Props
