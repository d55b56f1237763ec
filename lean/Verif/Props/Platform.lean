import Verif.Proof.Platform
import Verif.Props.Hash
import Verif.Props.Hex
import Verif.Props.Keys
import Verif.Props.WeightedSum

/-! # C96: what depends on the width of `size_t` and on the kind of `char` -/

set_option exponentiation.threshold 1000

namespace Bls.Props
open Bls

section
variable {w : ℕ} (h32 : 32 ≤ w) (h64 : w ≤ 64)
include h32 h64

omit h32 h64 in
/-- C96: `hexToBytes` reads hexadecimal digits of either case, with and without prefix, for either kind of `char` and every
width of `size_t`. -/
theorem C96_decode (signed : Bool) (s bs : List UInt8) (h : HexOf s bs) (hs : s.length + 2 < 2 ^ w) :
    Platform.hexToBytes signed w (48 :: 120 :: s) = some bs ∧ (s ≠ [] → Platform.hexToBytes signed w s = some bs) ∧
    Platform.hexToBytesN signed bs.length (48 :: 120 :: s) = some bs ∧ Platform.hexToBytesN signed bs.length s = some bs := by
  have hd : ∀ c : UInt8, (hexDigit c).isSome = true → c.toNat < 128 := by
    intro c hc
    unfold hexDigit at hc
    split_ifs at hc <;> first | omega | cases hc
  have ha : ∀ c ∈ s, c.toNat < 128 := by
    induction h with
    | nil => intro c hc; cases hc
    | cons h1 h2 _ ih =>
      intro c hc
      rcases List.mem_cons.1 hc with rfl | hc
      · exact hd _ (by rw [h1]; rfl)
      · rcases List.mem_cons.1 hc with rfl | hc
        · exact hd _ (by rw [h2]; rfl)
        · exact ih (by simp only [List.length_cons] at hs; omega) c hc
  have hb : ∀ c ∈ (48 :: 120 :: s : List UInt8), c.toNat < 128 := by
    intro c hc
    rcases List.mem_cons.1 hc with rfl | hc
    · decide
    · rcases List.mem_cons.1 hc with rfl | hc
      · decide
      · exact ha c hc
  obtain ⟨k1, k2, k3, k4⟩ := C16_decode s bs h
  refine ⟨?_, fun hne => ?_, ?_, ?_⟩
  · rw [Platform.hexToBytes_ascii (by simp only [List.length_cons]; omega) hb, k1]
  · rw [Platform.hexToBytes_ascii (by omega) ha, k2 hne]
  · rw [Platform.hexToBytesN_ascii signed _ hb, k3]
  · rw [Platform.hexToBytesN_ascii signed _ ha, k4]

omit h32 h64 in
/-- C96: with a signed `char` all strings are read alike for all widths, with an unsigned one those of ASCII characters. -/
theorem C96_strings (s : List UInt8) (hs : s.length < 2 ^ w) (n : ℕ) :
    Platform.hexToBytes true w s = hexToBytes s ∧ Platform.hexToBytesN true n s = hexToBytesN n s ∧
    ((∀ c ∈ s, c.toNat < 128) →
      Platform.hexToBytes false w s = hexToBytes s ∧ Platform.hexToBytesN false n s = hexToBytesN n s) :=
  ⟨Platform.hexToBytes_true hs, Platform.hexToBytesN_true n s,
    fun h => ⟨Platform.hexToBytes_ascii hs h false, Platform.hexToBytesN_ascii false n h⟩⟩

omit h32 h64 in
/-- C96: not all strings: the two bytes `ff ff` are read as `88` with a signed `char` and as `ff` with an unsigned one. -/
theorem C96_char_false : Platform.hexToBytes true 64 [0xff, 0xff] = some [0x88] ∧
    Platform.hexToBytes false 64 [0xff, 0xff] = some [0xff] := by decide +kernel

omit h64 in
/-- C96: `bytesToHex` returns the text, or throws if the text is longer than a string can be; but from `2^(w-1) - 1` bytes on
the length of the text does not fit into `size_t` and characters are written outside the string. -/
theorem C96_bytesToHex (max : ℕ) (bs : List UInt8) :
    (2 * bs.length + 2 < 2 ^ w → 2 * bs.length + 2 ≤ max → Platform.bytesToHex w max bs = some (.ok (bytesToHex bs))) ∧
    (2 * bs.length + 2 < 2 ^ w → max < 2 * bs.length + 2 → Platform.bytesToHex w max bs = some (.error ())) ∧
    (2 ^ w ≤ 2 * bs.length + 2 → (2 * bs.length + 2) % 2 ^ w ≤ max → Platform.bytesToHex w max bs = none) :=
  ⟨Platform.bytesToHex_ok bs, Platform.bytesToHex_error bs, Platform.bytesToHex_none (by omega) bs⟩

variable {H : List UInt8 → List UInt8} (hH : ∀ m, Fips.IsSha256 m (H m))
include hH

omit h32 in
/-- C96: `hkdf256_hmac` is HMAC for every message whose padded length fits into `size_t`; for the others the block allocated is
too short. -/
theorem C96_hmac (block : ℕ → UInt8) (key text : List UInt8) :
    (text.length + 64 < 2 ^ w → Platform.hmac w block text key = some (Rfc.hmac H key text)) ∧
    (2 ^ w ≤ text.length + 64 → Platform.hmac w block text key = none) := by
  refine ⟨fun h => ?_, fun h => Platform.hmac_none h64 block (by omega)⟩
  rw [Platform.hmac_ok h64 block (by omega), C36_hmac hH]

/-- C96: `hkdf256_expand` likewise, for every output length. The block of the first iteration holds one byte more than `info`,
the one of the others 33 bytes more; both are copied behind 64 bytes. -/
theorem C96_expand (block : ℕ → UInt8) (okm prk info : List UInt8) (L : ℕ) (hprk : prk.length = 32) (hL : 1 ≤ L)
    (hL' : L ≤ 8160) (hok : L ≤ okm.length) :
    (info.length + (if L ≤ 32 then 65 else 97) < 2 ^ w →
      Platform.expand w block okm L prk info = some (0, Rfc.expand H prk info L ++ okm.drop L)) ∧
    (2 ^ w ≤ info.length + (if L ≤ 32 then 65 else 97) → Platform.expand w block okm L prk info = none) := by
  constructor
  · intro h
    rw [Platform.expand_ok (by omega) h64 block okm prk (by split_ifs at h <;> omega) (by split_ifs at h <;> omega)]
    exact (C36_expand hH okm prk info L hprk hL hL' hok).1
  · intro h
    exact Platform.expand_none (by omega) h64 block okm prk hL hL' (by split_ifs at h <;> omega)

/-- C96: `secret_key` gives the key of every seed whose length is below `2^w - 65`; longer seeds make the blocks too short. -/
theorem C96_secretKey (block : ℕ → UInt8) (junk : List UInt8) (hj : junk.length = 48) (seed : List UInt8)
    (hs : 32 ≤ seed.length) :
    (seed.length + 65 < 2 ^ w →
      (∀ fuel, Platform.secretKey w block junk fuel seed ≠ none) ∧
      (∀ fuel sk, Platform.secretKey w block junk fuel seed = some (some sk) →
        sk.length = 4 ∧ KeyGen.IsKey H seed (wordsVal sk)) ∧
      (∀ k, KeyGen.IsKey H seed k → ∃ fuel sk, Platform.secretKey w block junk fuel seed = some (some sk) ∧ wordsVal sk = k)) ∧
    (2 ^ w ≤ seed.length + 65 → ∀ fuel, Platform.secretKey w block junk (fuel + 1) seed = none) := by
  refine ⟨fun h => ?_, fun h fuel => Platform.secretKey_none (by omega) h64 block junk fuel h⟩
  obtain ⟨k1, k2, k3⟩ := C38_secretKey hH junk hj seed hs
  have e := fun fuel => Platform.secretKey_ok (w := w) (by omega) h64 block junk fuel h
  refine ⟨fun fuel => ?_, fun fuel sk hk => ?_, fun k hk => ?_⟩
  · rw [e]; exact k1 fuel
  · rw [e] at hk
    exact ⟨(k2 fuel sk hk).1, (k2 fuel sk hk).2.1⟩
  · obtain ⟨fuel, sk, h1, h2⟩ := k3 k hk
    exact ⟨fuel, sk, by rw [e]; exact h1, h2⟩

/-- C96: `derive_child_sk` gives the same child key for every width. -/
theorem C96_deriveChildSk (block : ℕ → UInt8) (junk0 junk1 junk : List UInt8) (h0 : junk0.length = 8160)
    (h1 : junk1.length = 8160) (hj : junk.length = 48) (parent : List UInt64) (hp : parent.length = 4) (index : UInt32) :
    (∀ fuel, Platform.deriveChildSk w block junk0 junk1 junk fuel parent index ≠ none) ∧
    (∀ fuel sk, Platform.deriveChildSk w block junk0 junk1 junk fuel parent index = some (some sk) → sk.length = 4 ∧
      KeyGen.IsKey H (KeyGen.lamportPk H (wordsVal parent) index.toNat) (wordsVal sk)) := by
  obtain ⟨_, k1, k2⟩ := C38_deriveChildSk hH junk0 junk1 junk h0 h1 hj parent hp index
  have e := fun fuel => Platform.deriveChildSk_ok (w := w) (by omega) h64 block junk0 junk1 junk fuel hp index
  refine ⟨fun fuel => ?_, fun fuel sk hk => ?_⟩
  · rw [e]; exact k1 fuel
  · rw [e] at hk
    exact ⟨(k2 fuel sk hk).1, (k2 fuel sk hk).2.1⟩

end

variable {adx : Bool} {σ ε : Type}

/-- C96: `weightedSum` is `Σ eᵢ Pᵢ` for every width, however many points fit into memory; the shift that gives the number of
buckets is defined. -/
theorem C96_weightedSum {w : ℕ} (h64 : w ≤ 64) (scalars : List (List UInt64)) (hs : ∀ s ∈ scalars, s.length = 4) (s : σ) :
    (∀ (points : List (G1 (FpV adx))) (Ps : List (E1 (FpV adx))), List.Forall₂ Jac.Rep points Ps →
      min scalars.length points.length < 2 ^ w →
      ∃ r : G1 (FpV adx), Platform.weightedSumRun w points scalars (none : Jac.Yield σ ε) s = .ok (r, s) ∧
        r.Rep ((Ps.zip scalars).map fun e => wordsVal e.2 • e.1).sum) ∧
    (∀ (points : List (G2 (FpV adx))) (Ps : List (E2 (FpV adx))), List.Forall₂ Jac.Rep points Ps →
      min scalars.length points.length < 2 ^ w →
      ∃ r : G2 (FpV adx), Platform.weightedSumRun w points scalars (none : Jac.Yield σ ε) s = .ok (r, s) ∧
        r.Rep ((Ps.zip scalars).map fun e => wordsVal e.2 • e.1).sum) := by
  constructor
  · intro points Ps h hn
    obtain ⟨r, h1, h2, _⟩ := C25_callback_g1 (σ := σ) (ε := ε) scalars hs points Ps h
      (lt_of_lt_of_le hn (Nat.pow_le_pow_right (by decide) h64))
    exact ⟨r, by rw [Platform.weightedSumRun_eq h64 _ _ _ _ hn, h2], h1⟩
  · intro points Ps h hn
    obtain ⟨r, h1, h2, _⟩ := C25_callback_g2 (σ := σ) (ε := ε) scalars hs points Ps h
      (lt_of_lt_of_le hn (Nat.pow_le_pow_right (by decide) h64))
    exact ⟨r, by rw [Platform.weightedSumRun_eq h64 _ _ _ _ hn, h2], h1⟩

/-! ## Cases -/

/-- The text `0xaF09` on the four platforms. -/
example (signed : Bool) : Platform.hexToBytes signed 32 [48, 120, 97, 70, 48, 57] = some [0xaf, 0x09] ∧
    Platform.hexToBytes signed 64 [48, 120, 97, 70, 48, 57] = some [0xaf, 0x09] :=
  have h : HexOf [97, 70, 48, 57] [0xaf, 0x09] := .cons (x := 10) (y := 15) (by decide +kernel) (by decide +kernel)
    (.cons (x := 0) (y := 9) (by decide +kernel) (by decide +kernel) .nil)
  ⟨(C96_decode signed _ _ h (by decide)).1, (C96_decode signed _ _ h (by decide)).1⟩

/-- Strings of other characters: `zz` has no digits and is read alike. -/
example : Platform.hexToBytes false 32 [122, 122] = hexToBytes [122, 122] :=
  ((C96_strings [122, 122] (by decide) 1).2.2 (by decide)).1

/-- Text of two bytes, the exception if strings are limited to five characters, and `2^31 - 1` bytes on a machine with a
`size_t` of 32 bits: the string has length 0. -/
example : Platform.bytesToHex 32 (2 ^ 31 - 1) [0xaf, 0x09] = some (.ok [48, 120, 97, 102, 48, 57]) ∧
    Platform.bytesToHex 32 5 [0xaf, 0x09] = some (.error ()) ∧
    Platform.bytesToHex 32 (2 ^ 31 - 1) (List.replicate (2 ^ 31 - 1) 7) = none ∧
    bytesToHex [0xaf, 0x09] = [48, 120, 97, 102, 48, 57] := by
  refine ⟨((C96_bytesToHex (w := 32) le_rfl (2 ^ 31 - 1) [0xaf, 0x09]).1 (by decide) (by decide)).trans (by decide +kernel),
    (C96_bytesToHex (w := 32) le_rfl 5 [0xaf, 0x09]).2.1 (by decide) (by decide),
    (C96_bytesToHex (w := 32) le_rfl _ _).2.2 ?_ ?_, by decide +kernel⟩
  · rw [List.length_replicate]; decide
  · rw [List.length_replicate]; decide

/-- HMAC of three bytes with a `size_t` of 32 bits, and of `2^32 - 64` bytes. -/
example {H : List UInt8 → List UInt8} (hH : ∀ m, Fips.IsSha256 m (H m)) (block : ℕ → UInt8) :
    Platform.hmac 32 block [1, 2, 3] [4] = some (Rfc.hmac H [4] [1, 2, 3]) ∧
    Platform.hmac 32 block (List.replicate (2 ^ 32 - 64) 0) [4] = none ∧
    Platform.hmac 64 block (List.replicate (2 ^ 32 - 64) 0) [4] = some (Rfc.hmac H [4] (List.replicate (2 ^ 32 - 64) 0)) :=
  ⟨(C96_hmac (by decide) hH block _ _).1 (by decide),
    (C96_hmac (by decide) hH block _ _).2 (by rw [List.length_replicate]; decide),
    (C96_hmac (by decide) hH block _ _).1 (by rw [List.length_replicate]; decide)⟩

/-- Outputs of 40 and 20 bytes: `2^32 - 97` bytes of `info` are too many for the first. -/
example {H : List UInt8 → List UInt8} (hH : ∀ m, Fips.IsSha256 m (H m)) (block : ℕ → UInt8) :
    Platform.expand 32 block (List.replicate 40 0) 40 (List.replicate 32 7) (List.replicate (2 ^ 32 - 97) 1) = none ∧
    Platform.expand 32 block (List.replicate 20 0) 20 (List.replicate 32 7) (List.replicate (2 ^ 32 - 97) 1) =
      some (0, Rfc.expand H (List.replicate 32 7) (List.replicate (2 ^ 32 - 97) 1) 20) := by
  refine ⟨(C96_expand (by decide) (by decide) hH block _ _ _ 40 List.length_replicate (by decide) (by decide)
      (by rw [List.length_replicate])).2 (by rw [List.length_replicate]; decide),
    ((C96_expand (by decide) (by decide) hH block _ _ _ 20 List.length_replicate (by decide) (by decide)
      (by rw [List.length_replicate])).1 (by rw [List.length_replicate]; decide)).trans ?_⟩
  rw [List.drop_eq_nil_of_le (by rw [List.length_replicate]), List.append_nil]

/-- Seeds of 32 and of `2^32 - 65` bytes, and the child 0 of the key 3. -/
example {H : List UInt8 → List UInt8} (hH : ∀ m, Fips.IsSha256 m (H m)) (block : ℕ → UInt8) :
    (∀ fuel, Platform.secretKey 32 block (List.replicate 48 1) fuel (List.replicate 32 7) ≠ none) ∧
    Platform.secretKey 32 block (List.replicate 48 1) 1 (List.replicate (2 ^ 32 - 65) 7) = none ∧
    (∀ fuel, Platform.deriveChildSk 32 block (List.replicate 8160 0) (List.replicate 8160 1) (List.replicate 48 1) fuel [3, 0, 0, 0] 0 ≠ none) :=
  ⟨((C96_secretKey (by decide) (by decide) hH block _ List.length_replicate _ (by rw [List.length_replicate])).1
      (by rw [List.length_replicate]; decide)).1,
    (C96_secretKey (by decide) (by decide) hH block _ List.length_replicate _ (by rw [List.length_replicate]; decide)).2
      (by rw [List.length_replicate]; decide) 0,
    (C96_deriveChildSk (by decide) (by decide) hH block _ _ _ List.length_replicate List.length_replicate List.length_replicate _ rfl 0).1⟩

/-- `5 G` with a `size_t` of 32 bits. -/
example : ∃ r : G1 (FpV adx), Platform.weightedSumRun 32 [G1.one] [[5, 0, 0, 0]] (none : Jac.Yield Unit Unit) () = .ok (r, ()) ∧
    r.Rep ((5 : ℕ) • gen1 (FpV adx)) := by
  obtain ⟨r, h1, h2⟩ := (C96_weightedSum (adx := adx) (σ := Unit) (ε := Unit) (w := 32) (by decide) [[5, 0, 0, 0]]
    (by intro s h; rw [List.mem_singleton.1 h]; rfl) ()).1 [G1.one] [gen1 (FpV adx)] (.cons G1.one_rep .nil) (show 1 < 2 ^ 32 by decide)
  have hw : wordsVal [5, 0, 0, 0] = 5 := by decide
  rw [List.zip_cons_cons, List.zip_nil_left, List.map_cons, List.map_nil, List.sum_singleton, hw] at h2
  generalize gen1 (FpV adx) = g at h2 ⊢
  exact ⟨r, h1, h2⟩

end Bls.Props
