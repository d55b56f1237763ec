import Verif.Proof.Hex

/-! # C16: hexadecimal text -/

namespace Bls.Props
open Bls

/-- C16: encoding writes two digits per byte after `0x`. -/
theorem C16_encode (bs : List UInt8) : ∃ s, bytesToHex bs = 48 :: 120 :: s ∧ HexOf s bs := bytesToHex_spec bs

/-- C16: the digits written are `0-9` and `a-f`. -/
theorem C16_lower_case (bs : List UInt8) : ∀ c ∈ (bytesToHex bs).drop 2,
    (48 ≤ c.toNat ∧ c.toNat ≤ 57) ∨ (97 ≤ c.toNat ∧ c.toNat ≤ 102) := bytesToHex_lower bs

/-- The byte `0xaf`: `0xaf`. -/
example : bytesToHex [0xaf] = "0xaf".toUTF8.toList := by decide +kernel

/-- C16: `sha256::toString` writes the same digits without the prefix. -/
theorem C16_digest (bs : List UInt8) : bytesToHex bs = 48 :: 120 :: digestToString bs ∧ HexOf (digestToString bs) bs ∧
    (bs ≠ [] → hexToBytes (digestToString bs) = some bs) := by
  have hb : ∀ b : Fin 256, streamHex (UInt8.ofNat b.1).toNat = [hexmap.getD ((UInt8.ofNat b.1 &&& 0xF0) >>> 4).toNat 0,
      hexmap.getD (UInt8.ofNat b.1 &&& 0x0F).toNat 0] := by decide +kernel
  have e : bytesToHex bs = 48 :: 120 :: digestToString bs := by
    unfold bytesToHex digestToString
    congr 3
    funext b
    have := hb ⟨b.toNat, b.toNat_lt⟩
    rw [UInt8.ofNat_toNat] at this
    exact this.symm
  obtain ⟨s, h1, h2⟩ := bytesToHex_spec bs
  rw [e] at h1
  obtain rfl : digestToString bs = s := by simpa using h1
  refine ⟨e, h2, fun h0 => hexToBytes_spec h2 ?_⟩
  rintro h
  rw [h] at h2
  cases h2
  exact h0 rfl

example : digestToString [0x0a, 0xff, 0x30] = [48, 97, 102, 102, 51, 48] := by decide +kernel

/-- C16: decoding inverts encoding, in both versions. -/
theorem C16_roundtrip (bs : List UInt8) :
    hexToBytes (bytesToHex bs) = some bs ∧ hexToBytesN bs.length (bytesToHex bs) = some bs := by
  obtain ⟨s, h1, h2⟩ := bytesToHex_spec bs
  rw [h1]
  exact ⟨hexToBytes_prefix h2, hexToBytesN_prefix h2⟩

/-- C16: every string of pairs of digits of either case decodes to the bytes written, with or without prefix. -/
theorem C16_decode (s bs : List UInt8) (h : HexOf s bs) :
    hexToBytes (48 :: 120 :: s) = some bs ∧ (s ≠ [] → hexToBytes s = some bs) ∧
    hexToBytesN bs.length (48 :: 120 :: s) = some bs ∧ hexToBytesN bs.length s = some bs :=
  ⟨hexToBytes_prefix h, hexToBytes_spec h, hexToBytesN_prefix h, hexToBytesN_spec h⟩

/-- `"aF09"` and `"Af09"` write the same bytes. -/
example : HexOf [97, 70, 48, 57] [0xaf, 0x09] ∧ HexOf [65, 102, 48, 57] [0xaf, 0x09] :=
  ⟨.cons (x := 10) (y := 15) (by decide +kernel) (by decide +kernel)
      (.cons (x := 0) (y := 9) (by decide +kernel) (by decide +kernel) .nil),
    .cons (x := 10) (y := 15) (by decide +kernel) (by decide +kernel)
      (.cons (x := 0) (y := 9) (by decide +kernel) (by decide +kernel) .nil)⟩

/-- C16: other strings. Odd lengths give the empty vector, except for `"0"`; exactly the empty string and `"0"` make
`hexToBytes` read out of bounds. -/
theorem C16_odd (s : List UInt8) : (s.length % 2 = 1 → s ≠ [48] → hexToBytes s = some []) ∧
    (hexToBytes s = none ↔ s = [] ∨ s = [48]) := by
  match s with
  | [] => exact ⟨fun h => by simp at h, by simp [hexToBytes]⟩
  | [c] =>
    refine ⟨fun _ h => ?_, ?_⟩
    · rw [hexToBytes, if_neg (by rintro rfl; exact h rfl)]
    · rw [hexToBytes]
      split_ifs with h
      · simp [h]
      · simp [h]
  | c :: d :: t =>
    refine ⟨fun h _ => ?_, ?_⟩
    · rw [hexToBytes]; simp only [h]; simp
    · rw [hexToBytes]
      split <;> simp

example : hexToBytes [49, 50, 51] = some [] ∧ hexToBytes [48] = none := by decide +kernel

end Bls.Props
