import Verif.Proof.Collision
import Verif.Props.Hash
import Verif.Props.Keys
import Verif.Props.GroupCodec
import Verif.Proof.Signatures

/-!
# C71: two inputs share a derived value only through a collision of SHA-256

`Collide H A B` (`Spec/Collision.lean`): a string of the list `A` and another string of the list `B` have the same hash. The lists are
computed from the inputs of the two calls.
-/

namespace Bls.Props
open Bls Keys Rfc

variable {adx : Bool}

section
variable {H : List UInt8 → List UInt8} (hH : ∀ m, Fips.IsSha256 m (H m))
include hH

/-- C71: two calls of `xmd_sh256` (messages, tags or lengths different) agree in the first 32 bytes only if one of two pairs of
strings collides. -/
theorem C71_xmd (buf buf' out out' m m' d d' : List UInt8) (L L' : ℕ) (hm : m.length < 2 ^ 31) (hm' : m'.length < 2 ^ 31)
    (hd : d.length ≤ 255) (hd' : d'.length ≤ 255) (hL : 32 ≤ L) (hL' : 32 ≤ L') (hl : L ≤ 8160) (hl' : L' ≤ 8160)
    (hb : L ≤ buf.length) (hb' : L' ≤ buf'.length)
    (h : Hash.xmd buf L m m.length d d.length = some (0, out)) (h' : Hash.xmd buf' L' m' m'.length d' d'.length = some (0, out'))
    (he : out.take 32 = out'.take 32) :
    (m = m' ∧ d = d' ∧ L = L') ∨ Collide H (xmdInputs H m d L) (xmdInputs H m' d' L') := by
  obtain ⟨o, e1, e2, e3⟩ := C37_xmd hH buf m d L hm hd hl hb
  obtain ⟨o', e1', e2', e3'⟩ := C37_xmd hH buf' m' d' L' hm' hd' hl' hb'
  rw [e3, Option.some.injEq, Prod.mk.injEq] at h
  rw [e3', Option.some.injEq, Prod.mk.injEq] at h'
  rw [← h.2, ← h'.2, List.take_append_of_le_length (by omega), List.take_append_of_le_length (by omega)] at he
  exact xmd_inj (Hash.length_sha hH) hL hL' (by omega) (by omega) e1 e1' he

/-- C71: two calls of `hkdf256_extract_expand` with salts of one length up to 64 agree in the first 32 bytes only if one of the
strings hashed for these bytes collides. -/
theorem C71_hkdf (out out' res res' key key' salt salt' info info' : List UInt8) (L L' : ℕ) (hs : salt.length ≤ 64)
    (hs' : salt.length = salt'.length) (hL : 32 ≤ L) (hL' : 32 ≤ L') (hl : L ≤ 8160) (hl' : L' ≤ 8160) (ho : L ≤ out.length)
    (ho' : L' ≤ out'.length) (h : Hash.extractExpand out L key salt info = some (0, res))
    (h' : Hash.extractExpand out' L' key' salt' info' = some (0, res')) (he : res.take 32 = res'.take 32) :
    (salt = salt' ∧ key = key' ∧ info = info') ∨ Collide H (hkdfInputs H salt key info) (hkdfInputs H salt' key' info') := by
  have len : ∀ (prk info : List UInt8) (L : ℕ), (expand H prk info L).length = min L (32 * ((L + 31) / 32)) := fun prk info L => by
    have := Hash.blocks_length (fun i => T H prk info (i + 1)) (fun i => Hash.T_length hH prk info i) ((L + 31) / 32)
    rw [Hash.blocks] at this
    rw [expand, List.length_take, this]
  rw [C36_extract_expand hH out key salt info L (by omega) hl ho, Option.some.injEq, Prod.mk.injEq] at h
  rw [C36_extract_expand hH out' key' salt' info' L' (by omega) hl' ho', Option.some.injEq, Prod.mk.injEq] at h'
  rw [← h.2, ← h'.2, List.take_append_of_le_length (by rw [len]; omega), List.take_append_of_le_length (by rw [len]; omega)] at he
  exact hkdf_inj (Hash.length_sha hH) hs hs' hL hL' he

/-- C71: the lengths of the salts have to be the same: a zero at the end of a salt of less than 64 bytes changes nothing. -/
theorem C71_hkdf_padding (out key salt info : List UInt8) (L : ℕ) (hs : salt.length < 64) (hL : 1 ≤ L) (hl : L ≤ 8160)
    (ho : L ≤ out.length) : Hash.extractExpand out L key (salt ++ [0]) info = Hash.extractExpand out L key salt info := by
  rw [C36_extract_expand hH out key salt info L hL hl ho, C36_extract_expand hH out key (salt ++ [0]) info L hL hl ho, extract, extract,
    hmac_pad hs]

/-- C71: two calls of `parent_sk_to_lamport_pk` with different keys or different indices, and so the seeds of two hardened child
keys, agree only if one of six pairs of strings collides. -/
theorem C71_lamport (junk0 junk1 junk0' junk1' : List UInt8) (h0 : junk0.length = 8160) (h1 : junk1.length = 8160)
    (h0' : junk0'.length = 8160) (h1' : junk1'.length = 8160) (a b : List UInt64) (ha : a.length = 4) (hb : b.length = 4) (i j : UInt32)
    (h : parentSkToLamportPk junk0 junk1 a i = parentSkToLamportPk junk0' junk1' b j) :
    (a = b ∧ i = j) ∨ Collide H (lamportInputs H (wordsVal a) i.toNat) (lamportInputs H (wordsVal b) j.toNat) := by
  rw [lamport_eq hH junk0 junk1 h0 h1 a ha i, lamport_eq hH junk0' junk1' h0' h1' b hb j, Option.some.injEq] at h
  have lt : ∀ a : List UInt64, a.length = 4 → wordsVal a < 256 ^ 32 := fun a ha => by
    have := wordsVal_lt a
    rw [ha] at this
    exact this.trans_eq (by norm_num)
  rcases lamport_inj (Hash.length_sha hH) (lt a ha) (lt b hb) (UInt32.toNat_lt i) (UInt32.toNat_lt j) h with ⟨e1, e2⟩ | e
  · exact Or.inl ⟨wordsVal_inj (ha.trans hb.symm) e1, UInt32.toNat_inj.1 e2⟩
  · exact Or.inr e

/-- C71: the unhardened children `i` and `j` of a public key are the same point only if the hashes of the two strings are congruent
modulo `q`. -/
theorem C71_siblings (pk : G1 (FpV adx)) (hpk : pk.isOnCurve FpC.B = true) (i j : UInt32) (d e : G1 (FpV adx))
    (hd : deriveChildG1Unhardened pk i = some d) (he : deriveChildG1Unhardened pk j = some e) :
    d.equal e = true ↔ beVal (H (G1.toCompressedBytesBE pk ++ Fips.be 4 i.toNat)) % q =
      beVal (H (G1.toCompressedBytesBE pk ++ Fips.be 4 j.toNat)) % q := by
  obtain ⟨P, r⟩ := G1.onCurve_iff.1 hpk
  obtain ⟨d', hd', rd⟩ := (C43_public_side adx hH i).1 pk P r
  obtain ⟨e', he', re⟩ := (C43_public_side adx hH j).1 pk P r
  rw [hd, Option.some.injEq] at hd'
  rw [he, Option.some.injEq] at he'
  subst hd' he'
  rw [Jac.equal_iff rd re, add_right_inj, smul_gen1_eq_iff]

end

/-- C71: the string hashed by the unhardened derivations determines the key, if it is finite, and the index. -/
theorem C71_child_string (pk pk' : G1 (FpV adx)) (hpk : pk.isOnCurve FpC.B = true) (hpk' : pk'.isOnCurve FpC.B = true)
    (h0 : pk.isZero = false) (h0' : pk'.isZero = false) (i j : UInt32) :
    G1.toCompressedBytesBE pk ++ Fips.be 4 i.toNat = G1.toCompressedBytesBE pk' ++ Fips.be 4 j.toNat ↔
      pk.equal pk' = true ∧ i = j := by
  obtain ⟨P, r⟩ := G1.onCurve_iff.1 hpk
  obtain ⟨P', r'⟩ := G1.onCurve_iff.1 hpk'
  have hP : P ≠ 0 := fun h => by rw [r.isZero_iff.2 h] at h0; cases h0
  have hP' : P' ≠ 0 := fun h => by rw [r'.isZero_iff.2 h] at h0'; cases h0'
  obtain ⟨c, a, ea, ra⟩ := (C27_roundtrip_partial adx).1 pk P r hP
  obtain ⟨c', a', ea', ra'⟩ := (C27_roundtrip_partial adx).1 pk' P' r' hP'
  rw [Jac.equal_iff r r']
  constructor
  · intro h
    obtain ⟨h1, h2⟩ := List.append_inj h (c.1.trans c'.1.symm)
    rw [h1, ea', Option.some.injEq] at ea
    subst ea
    have := congrArg beVal h2
    rw [be_val, be_val, show 256 ^ 4 = 2 ^ 32 by norm_num, Nat.mod_eq_of_lt (UInt32.toNat_lt i),
      Nat.mod_eq_of_lt (UInt32.toNat_lt j)] at this
    exact ⟨ra.unique ra', UInt32.toNat_inj.1 this⟩
  · rintro ⟨rfl, rfl⟩
    rw [c.unique c']

/-- The messages `a` and `b`: the four strings are different, so equal outputs would be a collision of SHA-256. -/
example (out : List UInt8) (h : Hash.xmd (List.replicate 256 0) 256 [97] 1 [1] 1 = some (0, out))
    (h' : Hash.xmd (List.replicate 256 0) 256 [98] 1 [1] 1 = some (0, out)) :
    Collide (fun m => Sha256.hash [m]) (xmdInputs (fun m => Sha256.hash [m]) [97] [1] 256)
      (xmdInputs (fun m => Sha256.hash [m]) [98] [1] 256) :=
  (C71_xmd (H := fun m => Sha256.hash [m]) (fun m => by have := Sha256.hash_isSha256 [m]; rwa [List.flatten_singleton] at this)
    (List.replicate 256 0) (List.replicate 256 0) out out [97] [98] [1] [1] 256 256 (by decide) (by decide) (by decide) (by decide)
    (by decide) (by decide) (by decide) (by decide) (by rw [List.length_replicate]) (by rw [List.length_replicate]) h h' rfl).resolve_left (by simp)

/-- The keys `a` and `b` with the same salt and info. -/
example : ∃ res res' : List UInt8, Hash.extractExpand (List.replicate 48 0) 48 [97] [1] [2] = some (0, res) ∧
    Hash.extractExpand (List.replicate 48 0) 48 [98] [1] [2] = some (0, res') ∧ (res.take 32 = res'.take 32 →
      Collide (fun m => Sha256.hash [m]) (hkdfInputs (fun m => Sha256.hash [m]) [1] [97] [2])
        (hkdfInputs (fun m => Sha256.hash [m]) [1] [98] [2])) := by
  have e := fun k => C36_extract_expand Sig.sha_spec (List.replicate 48 0) [k] [1] [2] 48 (by decide) (by decide) (by decide)
  exact ⟨_, _, e 97, e 98, fun h => (C71_hkdf Sig.sha_spec _ _ _ _ _ _ _ _ _ _ 48 48 (by decide) rfl (by decide) (by decide)
    (by decide) (by decide) (by decide) (by decide) (e 97) (e 98) h).resolve_left (by simp)⟩

/-- The salts `1` and `1, 0`. -/
example : Hash.extractExpand (List.replicate 48 0) 48 [97] [1, 0] [2] = Hash.extractExpand (List.replicate 48 0) 48 [97] [1] [2] :=
  C71_hkdf_padding Sig.sha_spec _ [97] [1] [2] 48 (by decide) (by decide) (by decide) (by decide)

/-- The children 0 and 1 of the key 3. -/
example (h : parentSkToLamportPk (List.replicate 8160 0) (List.replicate 8160 0) [3, 0, 0, 0] 0 =
      parentSkToLamportPk (List.replicate 8160 0) (List.replicate 8160 0) [3, 0, 0, 0] 1) :
    Collide (fun m => Sha256.hash [m]) (lamportInputs (fun m => Sha256.hash [m]) 3 0) (lamportInputs (fun m => Sha256.hash [m]) 3 1) :=
  (C71_lamport Sig.sha_spec _ _ _ _ List.length_replicate List.length_replicate List.length_replicate List.length_replicate
    [3, 0, 0, 0] [3, 0, 0, 0] rfl rfl 0 1 h).resolve_left (by simp)

/-- A key on the curve, and its children 0 and 1. -/
example : ∃ d e : G1 (FpV adx), deriveChildG1Unhardened (publicKey [3, 0, 0, 0]) 0 = some d ∧
    deriveChildG1Unhardened (publicKey [3, 0, 0, 0]) 1 = some e ∧ (d.equal e = true ↔
      beVal (Sha256.hash [G1.toCompressedBytesBE (publicKey [3, 0, 0, 0] : G1 (FpV adx)) ++ Fips.be 4 0]) % q =
        beVal (Sha256.hash [G1.toCompressedBytesBE (publicKey [3, 0, 0, 0] : G1 (FpV adx)) ++ Fips.be 4 1]) % q) := by
  obtain ⟨d, hd, -⟩ := (C43_public_side adx Sig.sha_spec 0).1 _ _ (publicKey_rep [3, 0, 0, 0])
  obtain ⟨e, he, -⟩ := (C43_public_side adx Sig.sha_spec 1).1 _ _ (publicKey_rep [3, 0, 0, 0])
  exact ⟨d, e, hd, he, C71_siblings Sig.sha_spec _ (G1.onCurve_iff.2 ⟨_, publicKey_rep _⟩) 0 1 d e hd he⟩

end Bls.Props
