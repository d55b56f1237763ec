import Verif.Proof.Codec

/-!
# C07, C50: field codecs

`IsCodec` (`Spec/Codec.lean`) says that decoder and encoder are mutually inverse between the accepted strings of the
given length and the canonical values, and which strings are accepted.
-/

namespace Bls.Props
open Bls

/-- C07: big-endian codec of `fp` with validity check, with and without Montgomery conversion: 48-byte strings below
`p` correspond exactly to the canonical values, all others are rejected. -/
theorem C07_BE (adx mont : Bool) : IsCodec 48 (Fp.fromBytesBE adx true mont) (Fp.toBytesBE adx mont) Fp.Valid
    (fun bs => beVal bs < p) := Fp.codecBE adx mont

/-- C07: little-endian codec. -/
theorem C07_LE (adx mont : Bool) : IsCodec 48 (Fp.fromBytesLE adx true mont) (Fp.toBytesLE adx mont) Fp.Valid
    (fun bs => leVal bs < p) := Fp.codecLE adx mont

/-- C07: the decoded value is the number written in the bytes; without the check it is that number modulo `p`
(Montgomery form) or the unreduced number (plain form). -/
theorem C07_value (adx check : Bool) (bs : List UInt8) (hl : bs.length = 48) (x : Fp) :
    (Fp.fromBytesBE adx check true bs = some x → x.Rep (beVal bs : ZMod p)) ∧
    (Fp.fromBytesBE adx check false bs = some x → x.val = beVal bs) ∧
    (Fp.fromBytesLE adx check true bs = some x → x.Rep (leVal bs : ZMod p)) ∧
    (Fp.fromBytesLE adx check false bs = some x → x.val = leVal bs) := by
  have hb : (Fp.ofWords (Scalar.fromBytesBE 6 bs)).val = beVal bs := by
    rw [Fp.ofWords_val (Scalar.fromBytesBE_length 6 bs), Scalar.fromBytesBE_val 6 bs (by omega)]
  have hle : (Fp.ofWords (Scalar.fromBytesLE 6 bs)).val = leVal bs := by
    rw [Fp.ofWords_val (Scalar.fromBytesLE_length 6 bs), Scalar.fromBytesLE_val 6 bs (by omega)]
  refine ⟨fun h => ?_, fun h => ?_, fun h => ?_, fun h => ?_⟩
  · rw [Fp.fromBytesBE] at h
    split at h
    · cases h
    · rw [if_pos rfl] at h; rw [← Option.some.inj h, ← hb]; exact Fp.toMont_rep adx _
  · rw [Fp.fromBytesBE] at h
    split at h
    · cases h
    · rw [if_neg (by decide)] at h; rw [← Option.some.inj h, hb]
  · rw [Fp.fromBytesLE] at h
    split at h
    · cases h
    · rw [if_pos rfl] at h; rw [← Option.some.inj h, ← hle]; exact Fp.toMont_rep adx _
  · rw [Fp.fromBytesLE] at h
    split at h
    · cases h
    · rw [if_neg (by decide)] at h; rw [← Option.some.inj h, hle]

/-- The string of 48 bytes 7, read by all four decoders. -/
example (adx : Bool) : ∃ x y : Fp, Fp.fromBytesBE adx true true (List.replicate 48 7) = some x ∧
    x.Rep (beVal (List.replicate 48 7) : ZMod p) ∧ Fp.fromBytesLE adx true false (List.replicate 48 7) = some y ∧
    y.val = leVal (List.replicate 48 7) := by
  obtain ⟨x, hx⟩ := Option.isSome_iff_exists.1 (((C07_BE adx true).accept (List.replicate 48 7) (by decide)).2
    (by decide +kernel))
  obtain ⟨y, hy⟩ := Option.isSome_iff_exists.1 (((C07_LE adx false).accept (List.replicate 48 7) (by decide)).2
    (by decide +kernel))
  exact ⟨x, y, hx, (C07_value adx true _ (by decide) x).1 hx, hy, (C07_value adx true _ (by decide) y).2.2.2 hy⟩

/-- C07: the two encodings are reverses of each other. -/
theorem C07_reverse (adx mont : Bool) (x : Fp) : x.toBytesBE adx mont = (x.toBytesLE adx mont).reverse := by
  rw [Fp.toBytesBE, Fp.toBytesLE]
  split <;> rw [Scalar.toBytesBE_eq]

/-- Non-trivial strings on both sides of the bound: `p - 1` and `p`. -/
example : (Scalar.toBytesBE [0xB9FEFFFFFFFFAAAA, 0x1EABFFFEB153FFFF, 0x6730D2A0F6B0F624, 0x64774B84F38512BF,
      0x4B1BA7B6434BACD7, 0x1A0111EA397FE69A]).length = 48 ∧
    beVal (Scalar.toBytesBE [0xB9FEFFFFFFFFAAAA, 0x1EABFFFEB153FFFF, 0x6730D2A0F6B0F624, 0x64774B84F38512BF,
      0x4B1BA7B6434BACD7, 0x1A0111EA397FE69A]) = p - 1 ∧
    ¬ beVal (Scalar.toBytesBE [0xB9FEFFFFFFFFAAAB, 0x1EABFFFEB153FFFF, 0x6730D2A0F6B0F624, 0x64774B84F38512BF,
      0x4B1BA7B6434BACD7, 0x1A0111EA397FE69A]) < p := by decide +kernel

/-! ## C50 -/

/-- All coordinates of an `fp2` are canonical. -/
def Valid2 (x : Fp2 Fp) : Prop := x.c0.Valid ∧ x.c1.Valid

/-- All coordinates of an `fp6` are canonical. -/
def Valid6 (x : Fp6 Fp) : Prop := Valid2 x.c0 ∧ Valid2 x.c1 ∧ Valid2 x.c2

/-- All coordinates of an `fp12` are canonical. -/
def Valid12 (x : Fp12 Fp) : Prop := Valid6 x.c0 ∧ Valid6 x.c1

/-- C50: codecs of `fp2`, `fp6`, `fp12`, big-endian. -/
theorem C50_BE (adx mont : Bool) :
    IsCodec 96 (Fp2.fromBytesBE (Fp.fromBytesBE adx true mont)) (Fp2.toBytesBE (Fp.toBytesBE adx mont)) Valid2
      (CanonicalBE 2) ∧
    IsCodec 288 (Fp6.fromBytesBE (Fp.fromBytesBE adx true mont)) (Fp6.toBytesBE (Fp.toBytesBE adx mont)) Valid6
      (CanonicalBE 6) ∧
    IsCodec 576 (Fp12.fromBytesBE (Fp.fromBytesBE adx true mont)) (Fp12.toBytesBE (Fp.toBytesBE adx mont)) Valid12
      (CanonicalBE 12) :=
  ⟨Fp2.codecBE (Fp.codecBE adx mont), Fp6.codecBE (Fp.codecBE adx mont), Fp12.codecBE (Fp.codecBE adx mont)⟩

/-- C50: little-endian. -/
theorem C50_LE (adx mont : Bool) :
    IsCodec 96 (Fp2.fromBytesLE (Fp.fromBytesLE adx true mont)) (Fp2.toBytesLE (Fp.toBytesLE adx mont)) Valid2
      (CanonicalLE 2) ∧
    IsCodec 288 (Fp6.fromBytesLE (Fp.fromBytesLE adx true mont)) (Fp6.toBytesLE (Fp.toBytesLE adx mont)) Valid6
      (CanonicalLE 6) ∧
    IsCodec 576 (Fp12.fromBytesLE (Fp.fromBytesLE adx true mont)) (Fp12.toBytesLE (Fp.toBytesLE adx mont)) Valid12
      (CanonicalLE 12) :=
  ⟨Fp2.codecLE (Fp.codecLE adx mont), Fp6.codecLE (Fp.codecLE adx mont), Fp12.codecLE (Fp.codecLE adx mont)⟩

/-- C50: which group of bytes is which coordinate (big-endian: highest coordinate first). -/
theorem C50_order_BE (adx mont : Bool) (bs : List UInt8) (x : Fp12 Fp)
    (h : Fp12.fromBytesBE (Fp.fromBytesBE adx true mont) bs = some x) :
    [x.c1.c2.c1, x.c1.c2.c0, x.c1.c1.c1, x.c1.c1.c0, x.c1.c0.c1, x.c1.c0.c0,
     x.c0.c2.c1, x.c0.c2.c0, x.c0.c1.c1, x.c0.c1.c0, x.c0.c0.c1, x.c0.c0.c0].map some =
    (List.range 12).map fun i => Fp.fromBytesBE adx true mont (chunk bs i) := by
  generalize Fp.fromBytesBE adx true mont = dec at *
  simp only [Fp12.fromBytesBE_iff, Fp6.fromBytesBE_iff, Fp2.fromBytesBE_iff] at h
  simp only [span_span (by norm_num : 0 + 96 ≤ 288), span_span (by norm_num : 96 + 96 ≤ 288),
    span_span (by norm_num : 192 + 96 ≤ 288), span_span (by norm_num : 0 + 48 ≤ 96),
    span_span (by norm_num : 48 + 48 ≤ 96)] at h
  obtain ⟨⟨⟨a0, a1⟩, ⟨a2, a3⟩, a4, a5⟩, ⟨a6, a7⟩, ⟨a8, a9⟩, a10, a11⟩ := h
  simp only [List.map_cons, List.map_nil, ← a0, ← a1, ← a2, ← a3, ← a4, ← a5, ← a6, ← a7, ← a8, ← a9, ← a10, ← a11]
  rfl

/-- C50: which group of bytes is which coordinate (little-endian: lowest coordinate first). -/
theorem C50_order_LE (adx mont : Bool) (bs : List UInt8) (x : Fp12 Fp)
    (h : Fp12.fromBytesLE (Fp.fromBytesLE adx true mont) bs = some x) :
    [x.c0.c0.c0, x.c0.c0.c1, x.c0.c1.c0, x.c0.c1.c1, x.c0.c2.c0, x.c0.c2.c1,
     x.c1.c0.c0, x.c1.c0.c1, x.c1.c1.c0, x.c1.c1.c1, x.c1.c2.c0, x.c1.c2.c1].map some =
    (List.range 12).map fun i => Fp.fromBytesLE adx true mont (chunk bs i) := by
  generalize Fp.fromBytesLE adx true mont = dec at *
  simp only [Fp12.fromBytesLE_iff, Fp6.fromBytesLE_iff, Fp2.fromBytesLE_iff] at h
  simp only [span_span (by norm_num : 0 + 96 ≤ 288), span_span (by norm_num : 96 + 96 ≤ 288),
    span_span (by norm_num : 192 + 96 ≤ 288), span_span (by norm_num : 0 + 48 ≤ 96),
    span_span (by norm_num : 48 + 48 ≤ 96)] at h
  obtain ⟨⟨⟨a0, a1⟩, ⟨a2, a3⟩, a4, a5⟩, ⟨a6, a7⟩, ⟨a8, a9⟩, a10, a11⟩ := h
  simp only [List.map_cons, List.map_nil, ← a0, ← a1, ← a2, ← a3, ← a4, ← a5, ← a6, ← a7, ← a8, ← a9, ← a10, ← a11]
  rfl

/-- A string with all coordinates canonical, and one with a bad coordinate. -/
theorem canonical_case : CanonicalBE 12 (List.replicate 576 7) ∧ ¬ CanonicalBE 12 (List.replicate 576 0x1b) := by
  have h : ∀ b : UInt8, ∀ i < 12, chunk (List.replicate 576 b) i = List.replicate 48 b := by
    intro b i hi
    rw [chunk, List.drop_replicate, List.take_replicate, min_eq_left (by omega)]
  constructor
  · intro i hi
    rw [h _ i hi]; decide +kernel
  · intro hh
    have := hh 0 (by norm_num)
    rw [h _ 0 (by norm_num)] at this
    exact absurd this (by decide +kernel)

/-- The first is decoded, and the first group of 48 bytes is the last coordinate. -/
example (adx mont : Bool) : ∃ x : Fp12 Fp, Fp12.fromBytesBE (Fp.fromBytesBE adx true mont) (List.replicate 576 7) = some x ∧
    some x.c1.c2.c1 = Fp.fromBytesBE adx true mont (chunk (List.replicate 576 7) 0) := by
  obtain ⟨x, hx⟩ := Option.isSome_iff_exists.1 (((C50_BE adx mont).2.2.accept (List.replicate 576 7) List.length_replicate).2
    canonical_case.1)
  exact ⟨x, hx, (List.cons.inj (C50_order_BE adx mont _ x hx)).1⟩

/-- The string of 576 zeros in the other order. -/
example (adx mont : Bool) : ∃ x : Fp12 Fp, Fp12.fromBytesLE (Fp.fromBytesLE adx true mont) (List.replicate 576 0) = some x ∧
    some x.c0.c0.c0 = Fp.fromBytesLE adx true mont (chunk (List.replicate 576 0) 0) := by
  obtain ⟨x, hx⟩ := Option.isSome_iff_exists.1 (((C50_LE adx mont).2.2.accept (List.replicate 576 0) List.length_replicate).2 (by
    intro i hi
    rw [chunk, List.drop_replicate, List.take_replicate, min_eq_left (by omega)]
    decide +kernel))
  exact ⟨x, hx, (List.cons.inj (C50_order_LE adx mont _ x hx)).1⟩

end Bls.Props
