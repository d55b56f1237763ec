import Verif.Proof.Hash

/-!
# C35-C37: hashing

`Fips.IsSha256 m h`: `h` is the FIPS 180-4 digest of `m` (`Spec/Sha256.lean`; the constants are specified as roots of
primes). `Rfc.*`: HMAC, HKDF, expand_message_xmd over a hash function (`Spec/Hash.lean`).
-/

namespace Bls.Props
open Bls

/-! ## C35 -/

/-- C35: a fresh object (any initial buffer content) fed with any pieces outputs the SHA-256 of their
concatenation. -/
theorem C35_sha256 (junk : List UInt8) (hj : junk.length = 64) (pieces : List (List UInt8)) :
    Fips.IsSha256 pieces.flatten (pieces.foldl Sha256.update (Sha256.init junk)).digest := by
  have := Sha256.updates_inv pieces (Sha256.init_inv junk hj)
  rw [List.nil_append] at this
  exact Sha256.digest_isSha256 this

/-- C35: the specification has exactly one solution for every message. -/
theorem C35_unique (m : List UInt8) : ∃! h, Fips.IsSha256 m h := by
  refine ⟨Sha256.hash [m], ?_, fun h hh => Sha256.isSha256_unique hh ?_⟩ <;>
  · have := Sha256.hash_isSha256 [m]
    rwa [List.flatten_singleton] at this

/-- C35: the write position stays inside the 64-byte buffer before every byte. -/
theorem C35_bounds (junk : List UInt8) (hj : junk.length = 64) (pieces : List (List UInt8)) :
    let x := pieces.foldl Sha256.update (Sha256.init junk)
    x.blocklen < 64 ∧ x.data.length = 64 := by
  have := Sha256.updates_inv pieces (Sha256.init_inv junk hj)
  exact ⟨by rw [this.blocklen]; omega, this.length⟩

/-- The digest of "abc" (FIPS 180 example), fed in two pieces. -/
example : Fips.IsSha256 [97, 98, 99]
    [0xba, 0x78, 0x16, 0xbf, 0x8f, 0x01, 0xcf, 0xea, 0x41, 0x41, 0x40, 0xde, 0x5d, 0xae, 0x22, 0x23,
     0xb0, 0x03, 0x61, 0xa3, 0x96, 0x17, 0x7a, 0x9c, 0xb4, 0x10, 0xff, 0x61, 0xf2, 0x00, 0x15, 0xad] := by
  have h := C35_sha256 (List.replicate 64 7) (by simp) [[97], [98, 99]]
  have e : ([[97], [98, 99]].foldl Sha256.update (Sha256.init (List.replicate 64 7))).digest =
    [0xba, 0x78, 0x16, 0xbf, 0x8f, 0x01, 0xcf, 0xea, 0x41, 0x41, 0x40, 0xde, 0x5d, 0xae, 0x22, 0x23,
     0xb0, 0x03, 0x61, 0xa3, 0x96, 0x17, 0x7a, 0x9c, 0xb4, 0x10, 0xff, 0x61, 0xf2, 0x00, 0x15, 0xad] := by decide +kernel
  rw [e] at h
  exact h

/-! ## C36 -/

variable {H : List UInt8 → List UInt8} (hH : ∀ m, Fips.IsSha256 m (H m))
include hH

/-- C36: HMAC-SHA-256 for every key and message. -/
theorem C36_hmac (key text : List UInt8) : Hash.hmac text key = Rfc.hmac H key text := Hash.hmac_eq hH text key

/-- C36: HKDF-Extract. -/
theorem C36_extract (salt ikm : List UInt8) : Hash.extract salt ikm = Rfc.extract H salt ikm := Hash.hmac_eq hH ikm salt

/-- C36: HKDF-Expand for every output length `1 … 8160`; the bytes of the output buffer after `L` are untouched. -/
theorem C36_expand (okm prk info : List UInt8) (L : ℕ) (hprk : prk.length = 32) (hL : 1 ≤ L) (hL' : L ≤ 8160)
    (hok : L ≤ okm.length) :
    Hash.expand okm L prk info = some (0, Rfc.expand H prk info L ++ okm.drop L) ∧ (Rfc.expand H prk info L).length = L := by
  refine ⟨Hash.expand_eq hH okm prk info hprk hL hL' hok, ?_⟩
  have := Hash.blocks_length (fun i => Rfc.T H prk info (i + 1)) (fun i => Hash.T_length hH prk info i) ((L + 31) / 32)
  rw [Hash.blocks] at this
  rw [Rfc.expand, List.length_take, this]; omega

omit hH in
/-- C36: lengths above 8160 and the length 0 are errors, nothing is written. -/
theorem C36_expand_error (okm prk info : List UInt8) (L : ℕ) :
    (8160 < L → Hash.expand okm L prk info = some (-1, okm)) ∧
    (L = 0 → Hash.expand okm L prk info = some (-3, okm)) := by
  constructor
  · intro h; rw [Hash.expand, if_pos (by omega)]
  · intro h; subst h; rfl

/-- C36: extract-then-expand. -/
theorem C36_extract_expand (out key salt info : List UInt8) (L : ℕ) (hL : 1 ≤ L) (hL' : L ≤ 8160) (hok : L ≤ out.length) :
    Hash.extractExpand out L key salt info =
      some (0, Rfc.expand H (Rfc.extract H salt key) info L ++ out.drop L) := by
  rw [Hash.extractExpand, C36_extract hH, Hash.expand_eq hH out (Rfc.extract H salt key) info (Hash.hmac_length hH _ _) hL hL' hok]

/-! ## C37 -/

/-- C37: `xmd_sh256` is `expand_message_xmd`; the bytes of the buffer after `L` are untouched. (`in_len` is an `int`.) -/
theorem C37_xmd (buf msg dst : List UInt8) (L : ℕ) (hmsg : msg.length < 2 ^ 31) (hdst : dst.length ≤ 255) (hL : L ≤ 8160)
    (hbuf : L ≤ buf.length) :
    ∃ out, Rfc.expandMessageXmd H msg dst L = some out ∧ out.length = L ∧
      Hash.xmd buf L msg msg.length dst dst.length = some (0, out ++ buf.drop L) := by
  obtain ⟨out, h1, h2⟩ := Hash.xmd_eq hH buf msg dst hmsg hdst hL hbuf
  have e : ∀ n : ℕ, n < 2 ^ 31 → Hash.toInt n = n := fun n hn => by
    rw [Hash.toInt, Nat.mod_eq_of_lt (by omega), if_pos (by omega)]
  rw [e _ hmsg, e _ (by omega)] at h2
  refine ⟨out, h1, ?_, h2⟩
  rw [Rfc.expandMessageXmd] at h1
  dsimp only at h1
  rw [if_neg (by omega)] at h1
  rw [← Option.some.inj h1, List.length_take]
  have := Hash.blocks_length _ (fun i => Hash.xmdBlock_length hH (H (List.replicate 64 0 ++ msg ++ Fips.be 2 L ++ Fips.be 1 0 ++
    (dst ++ Fips.be 1 dst.length))) (dst ++ Fips.be 1 dst.length) i) ((L + 31) / 32)
  rw [Hash.blocks] at this
  rw [this]; omega

omit hH in
/-- C37: otherwise `-1` is returned and nothing is written, exactly when the specification aborts. -/
theorem C37_error (buf msg dst : List UInt8) (L : ℕ) (h : 8160 < L ∨ 255 < dst.length) (hL : L < 2 ^ 31) (inLen : ℤ) :
    Rfc.expandMessageXmd H msg dst L = none ∧ Hash.xmd buf L msg inLen dst dst.length = some (-1, buf) := by
  constructor
  · rw [Rfc.expandMessageXmd]; dsimp only; rw [if_pos (by omega)]
  · rw [Hash.xmd]
    dsimp only
    rw [if_pos]
    rw [Int.emod_eq_of_lt (by omega) (by omega)]
    omega

omit hH in
/-- C37: negative output lengths are refused. -/
theorem C37_negative (buf msg dst : List UInt8) (L inLen dstLen : ℤ) (h : L < 0) :
    Hash.xmd buf L msg inLen dst dstLen = some (-1, buf) := by
  rw [Hash.xmd]
  dsimp only
  rw [if_pos (Or.inl h)]

omit hH in
/-- A message of two blocks, a key of one byte; 48 bytes of output in a buffer of 50; the tag `1`; a tag of 256 bytes. -/
example (hH : ∀ m, Fips.IsSha256 m (H m)) : Hash.hmac (List.replicate 100 7) [1] = Rfc.hmac H [1] (List.replicate 100 7) ∧
    Hash.extract [1] (List.replicate 100 7) = Rfc.extract H [1] (List.replicate 100 7) ∧
    Hash.expand (List.replicate 50 9) 48 (List.replicate 32 1) [5] = some (0, Rfc.expand H (List.replicate 32 1) [5] 48 ++ [9, 9]) ∧
    Hash.extractExpand (List.replicate 50 9) 48 [3] [1] [5] = some (0, Rfc.expand H (Rfc.extract H [1] [3]) [5] 48 ++ [9, 9]) ∧
    (∃ out, Rfc.expandMessageXmd H [97] [1] 48 = some out ∧ Hash.xmd (List.replicate 50 9) 48 [97] 1 [1] 1 = some (0, out ++ [9, 9])) ∧
    Hash.xmd [0, 0] 2 [97] 1 (List.replicate 256 1) 256 = some (-1, [0, 0]) := by
  obtain ⟨out, h1, -, h2⟩ := C37_xmd hH (List.replicate 50 9) [97] [1] 48 (by decide) (by decide) (by decide) (by decide)
  exact ⟨C36_hmac hH _ _, C36_extract hH _ _, (C36_expand hH _ _ _ 48 (by decide) (by decide) (by decide) (by decide)).1,
    C36_extract_expand hH _ _ _ _ 48 (by decide) (by decide) (by decide), ⟨out, h1, h2⟩,
    by
      have := (C37_error (H := H) [0, 0] [97] (List.replicate 256 1) 2 (.inr (by rw [List.length_replicate]; decide)) (by decide) 1).2
      rwa [List.length_replicate] at this⟩

omit hH in
/-- SHA-256 exists, so the hypothesis on `H` can be met; lengths `1 … 8160` and tags occur (RFC 9380 K.1 first test vector,
`len_in_bytes = 0x20`). -/
example : (∀ m, Fips.IsSha256 m (Sha256.hash [m])) ∧
    Hash.xmd (List.replicate 40 9) 32 [] 0 ("QUUX-V01-CS02-with-expander-SHA256-128".toUTF8.toList) 38 =
      some (0, [0x68, 0xa9, 0x85, 0xb8, 0x7e, 0xb6, 0xb4, 0x69, 0x52, 0x12, 0x89, 0x11, 0xf2, 0xa4, 0x41, 0x2b,
        0xbc, 0x30, 0x2a, 0x9d, 0x75, 0x96, 0x67, 0xf8, 0x7f, 0x7a, 0x21, 0xd8, 0x03, 0xf0, 0x72, 0x35] ++
        List.replicate 8 9) := by
  constructor
  · intro m
    have := Sha256.hash_isSha256 [m]
    rwa [List.flatten_singleton] at this
  · decide +kernel

end Bls.Props
