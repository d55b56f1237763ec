import Verif.Proof.Derivation
import Verif.Props.Signatures

/-!
# C68: what unhardened derivation gives away

`Chain.secretPath`, `Chain.publicPath`: the derivation functions along a path of indices. `Chain.tweak`, `Chain.pathTweak`: numbers
computed from public keys alone. `Chain.Good`: no addition on the way loses a carry (C40, C43) and no key on the way is zero.
-/

namespace Bls.Props
open Bls Sig Keys

attribute [local irreducible] p q hEff2

variable {adx : Bool} {H : List UInt8 → List UInt8} (hH : ∀ m, Fips.IsSha256 m (H m))

include hH

/-- C68: along a whole path the public side stays the public key of the secret side, and both differ from the start by a number
that is computed from public keys. -/
theorem C68_path (path : List UInt32) (sk : List UInt64) (hl : sk.length = 4) (hq : wordsVal sk < q)
    (hg : Chain.Good H (FpV adx) sk path) :
    ∃ c d, Chain.secretPath (FpV adx) sk path = some c ∧ c.length = 4 ∧ wordsVal c < q ∧
      Chain.publicPath (publicKey sk : G1 (FpV adx)) path = some d ∧ d.equal (publicKey c) = true ∧
      wordsVal c = (wordsVal sk + Chain.pathTweak H (publicKey sk : G1 (FpV adx)) path) % q := by
  obtain ⟨c, d, c1, c2, c3, d1, d2, d3⟩ := path_commutes hH path sk hl hq hg (publicKey sk : G1 (FpV adx))
    ⟨_, publicKey_rep sk, publicKey_rep sk⟩ rfl
  exact ⟨c, d, c1, c2, c3, d1, (same1_iff.1 d2).2.2, by rw [← d3, Nat.mod_eq_of_lt c3]⟩

/-- C68: the public key of a key and any one key derived from it without hardening give the key, and with it every other key
derived from it. -/
theorem C68_reveals (path path' : List UInt32) (sk : List UInt64) (hl : sk.length = 4) (hq : wordsVal sk < q)
    (hg : Chain.Good H (FpV adx) sk path) (hg' : Chain.Good H (FpV adx) sk path') (c c' : List UInt64)
    (h : Chain.secretPath (FpV adx) sk path = some c) (h' : Chain.secretPath (FpV adx) sk path' = some c') :
    wordsVal sk = (wordsVal c + (q - Chain.pathTweak H (publicKey sk : G1 (FpV adx)) path % q)) % q ∧
    wordsVal c' = (wordsVal c + (q - Chain.pathTweak H (publicKey sk : G1 (FpV adx)) path % q) +
      Chain.pathTweak H (publicKey sk : G1 (FpV adx)) path') % q := by
  obtain ⟨a, _, a1, _, a3, _, _, a6⟩ := C68_path (adx := adx) hH path sk hl hq hg
  obtain rfl := Option.some.inj (a1.symm.trans h)
  obtain ⟨b, _, b1, _, b3, _, _, b6⟩ := C68_path (adx := adx) hH path' sk hl hq hg'
  obtain rfl := Option.some.inj (b1.symm.trans h')
  generalize Chain.pathTweak H (publicKey sk : G1 (FpV adx)) path = t at a6 ⊢
  have ht := Nat.mod_lt t q_prime.pos
  have e : wordsVal sk = (wordsVal a + (q - t % q)) % q := by
    rw [a6, Nat.mod_add_mod, ← Nat.mod_add_div t q]
    generalize t % q = u at ht ⊢
    generalize t / q = v
    rw [Nat.add_mul_mod_self_left, Nat.mod_eq_of_lt ht, show wordsVal sk + (u + q * v) + (q - u) = wordsVal sk + q * (v + 1) by
      rw [mul_add]; omega, Nat.add_mul_mod_self_left, Nat.mod_eq_of_lt hq]
  refine ⟨e, ?_⟩
  rw [b6, Nat.add_mod, e, Nat.mod_mod, ← Nat.add_mod]

/-- C68: anybody can turn a signature of a key into the signature of each of its unhardened children on the same message, and
back. No exception. -/
theorem C68_convert (pk : G1 (FpV adx)) (hpk : pk.isOnCurve FpC.B = true) (i : UInt32) (m : List UInt8) (e : G2 (FpV adx))
    (he : fromMessage m ciphersuiteId = some e) (t : List UInt64) (ht : wordsVal t % q = Chain.tweak H pk i % q) :
    ∃ d, deriveChildG1Unhardened pk i = some d ∧
      (∀ s, verify pk m s = some true → verify d m (s.add (e.scale t)) = some true) ∧
      ∀ s, verify d m s = some true → verify pk m (s.subtract (e.scale t)) = some true := by
  obtain ⟨P, r⟩ := G1.onCurve_iff.1 hpk
  obtain ⟨d, d1, d2⟩ := childG1_rep hH pk P r i
  refine ⟨d, d1, fun s h => verify_shift (fun Q hQ => ?_) ht he h, fun s h => verify_unshift r d2 ht he h⟩
  rw [hQ.unique r]
  exact d2

/-- The path `0, 1` from the key 1. -/
example : Chain.Good H (FpV adx) [1, 0, 0, 0] [0, 1] := good_path (FpV adx) hH
example : ∃ c, Chain.secretPath (FpV adx) [1, 0, 0, 0] [0, 1] = some c ∧
    1 = (wordsVal c + (q - Chain.pathTweak H (publicKey [1, 0, 0, 0] : G1 (FpV adx)) [0, 1] % q)) % q := by
  have h1 : wordsVal [1, 0, 0, 0] = 1 := by decide +kernel
  have hq : wordsVal [1, 0, 0, 0] < q := by rw [h1]; decide +kernel
  obtain ⟨c, _, hc, _⟩ := C68_path (adx := adx) hH [0, 1] [1, 0, 0, 0] rfl hq (good_path (FpV adx) hH)
  have := (C68_reveals (adx := adx) hH [0, 1] [0, 1] [1, 0, 0, 0] rfl hq (good_path _ hH) (good_path _ hH) c c hc hc).1
  rw [h1] at this
  exact ⟨c, hc, this⟩

/-- The child 0 of the key 3 and the message `abc`: the converted signature is accepted. -/
example : ∃ (d : G1 (FpV adx)) (s : G2 (FpV adx)), deriveChildG1Unhardened (publicKey [3, 0, 0, 0]) 0 = some d ∧
    verify d [97, 98, 99] s = some true := by
  obtain ⟨s, hs⟩ := C45_sign_defined (adx := adx) [3, 0, 0, 0] [97, 98, 99] (by decide)
  obtain ⟨e, he, _⟩ := hash_abc_ne (FpV adx)
  obtain ⟨t, _, _, ht⟩ := skFromBytes_mod (H (G1.toCompressedBytesBE (publicKey [3, 0, 0, 0] : G1 (FpV adx)) ++ Fips.be 4 (0 : UInt32).toNat))
    (Hash.length_sha hH _)
  obtain ⟨d, hd, h, _⟩ := C68_convert hH (publicKey [3, 0, 0, 0] : G1 (FpV adx)) (G1.onCurve_iff.2 ⟨_, publicKey_rep _⟩) 0 [97, 98, 99] e he t
    (by rw [ht, Nat.mod_mod]; rfl)
  exact ⟨d, _, hd, h s (C45_sign _ _ s hs)⟩

end Bls.Props
