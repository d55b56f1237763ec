import Verif.Proof.Strings
import Verif.Props.Signatures
import Verif.Props.GroupCodec
import Verif.Props.Same
import Mathlib.Data.Set.Card

/-!
# C77: which byte strings are accepted as a signature or as a key

`verify` after `fromCompressedBytesBE` or `fromAffineBytesLE`, as a receiver calls them.
-/

namespace Bls.Props
open Bls Sig

set_option exponentiation.threshold 1000

attribute [local irreducible] p q hEff2

variable {adx : Bool}

/-- The 96 bytes decode to a point that `verify` accepts.
Calls: `g2::fromCompressedBytesBE` (src/g.cpp:811), `verify` (src/signatures.cpp:538). -/
def AcceptsSig (pk : G1 (FpV adx)) (m bs : List UInt8) : Prop :=
  bs.length = 96 ∧ ∃ s : G2 (FpV adx), G2.fromCompressedBytesBE bs = some s ∧ verify pk m s = some true

/-- The 48 bytes decode to a key for which `verify` accepts.
Calls: `g1::fromCompressedBytesBE` (src/g.cpp:98), `verify` (src/signatures.cpp:538). -/
def AcceptsKey (m : List UInt8) (s : G2 (FpV adx)) (bs : List UInt8) : Prop :=
  bs.length = 48 ∧ ∃ pk : G1 (FpV adx), G1.fromCompressedBytesBE bs = some pk ∧ verify pk m s = some true

/-- The key 3 and its signature of `abc`, which does not hash to infinity. -/
theorem strings_case : ∃ e s : G2 (FpV adx), fromMessage [97, 98, 99] ciphersuiteId = some e ∧ e.isZero = false ∧
    verify (Keys.publicKey [3, 0, 0, 0]) [97, 98, 99] s = some true ∧ s.isZero = false ∧
    (Keys.publicKey [3, 0, 0, 0] : G1 (FpV adx)).isZero = false := by
  obtain ⟨e, he, h0⟩ := hash_abc_ne (FpV adx)
  have hs : sign [3, 0, 0, 0] [97, 98, 99] = some (e.scale [3, 0, 0, 0]) := by rw [sign, he, Option.map_some]
  refine ⟨e, e.scale [3, 0, 0, 0], he, h0, C45_sign _ _ _ hs, ?_, ?_⟩
  · rw [Bool.eq_false_iff, Ne, sign_zero_iff he hs, h0]
    rintro (h | h)
    · exact absurd h (by decide +kernel)
    · exact Bool.noConfusion h
  · rw [Bool.eq_false_iff, Ne, (C42_publicKey adx [3, 0, 0, 0]).2.1]
    decide +kernel

/-- Infinity as key and signature. -/
theorem strings_infinity : verify (⟨1, 1, 0⟩ : G1 (FpV adx)) [97, 98, 99] ⟨1, 1, 0⟩ = some true ∧
    (⟨1, 1, 0⟩ : G1 (FpV adx)).isZero = true ∧ (⟨1, 1, 0⟩ : G2 (FpV adx)).isZero = true :=
  ⟨C47_false_verify _ _ _ (by decide) (Jac.isZero_iff.2 rfl) (Jac.isZero_iff.2 rfl), Jac.isZero_iff.2 rfl, Jac.isZero_iff.2 rfl⟩

/-- C77: if the signature is not infinity, the accepted strings are its compressed form and, if there is room in 381 bits,
the string in which `p` is added to the first coordinate. -/
theorem C77_signature (pk : G1 (FpV adx)) (m : List UInt8) (s : G2 (FpV adx)) (h : verify pk m s = some true)
    (h0 : s.isZero = false) (bs : List UInt8) (hl : bs.length = 96) :
    AcceptsSig pk m bs ↔ bs = G2.toCompressedBytesBE s ∨
      (beVal (G2.toCompressedBytesBE s) / 2 ^ 384 % 2 ^ 381 + p < 2 ^ 381 ∧
        beVal bs = beVal (G2.toCompressedBytesBE s) + p * 2 ^ 384) := by
  obtain ⟨S, hS, hi⟩ := accepted_iff h
  have hS0 : S ≠ 0 := fun e => by rw [hS.isZero_iff.2 e] at h0; exact Bool.noConfusion h0
  rw [← strings2 hS hS0 hl]
  exact ⟨fun ⟨_, s', e, hv⟩ => ⟨s', e, (hi s').1 hv⟩, fun ⟨s', e, hr⟩ => ⟨hl, s', e, (hi s').2 hr⟩⟩

/-- The string of 96 zeros is not accepted. -/
example : ∃ s : G2 (FpV adx), verify (Keys.publicKey [3, 0, 0, 0] : G1 (FpV adx)) [97, 98, 99] s = some true ∧
    (AcceptsSig (Keys.publicKey [3, 0, 0, 0] : G1 (FpV adx)) [97, 98, 99] (List.replicate 96 0) →
      List.replicate 96 0 = G2.toCompressedBytesBE s) := by
  obtain ⟨e, s, -, -, h, h0, -⟩ := strings_case (adx := adx)
  refine ⟨s, h, fun ha => ?_⟩
  rcases (C77_signature _ _ s h h0 _ List.length_replicate).1 ha with h1 | ⟨-, h1⟩
  · exact h1
  · rw [show beVal (List.replicate 96 0) = 0 by decide +kernel] at h1
    exact absurd h1.symm (Nat.add_pos_right _ (Nat.mul_pos (by unfold p; decide) (Nat.two_pow_pos 384))).ne'

/-- C77: if the signature is infinity, the accepted strings are those with the two top bits set, whatever follows. -/
theorem C77_infinity (pk : G1 (FpV adx)) (m : List UInt8) (s : G2 (FpV adx)) (h : verify pk m s = some true)
    (h0 : s.isZero = true) (bs : List UInt8) (hl : bs.length = 96) :
    AcceptsSig pk m bs ↔ (2 ^ 383 + 2 ^ 382) * 2 ^ 384 ≤ beVal bs := by
  obtain ⟨S, hS, hi⟩ := accepted_iff h
  obtain rfl := hS.isZero_iff.1 h0
  have := (C28_exact adx bs).2 hl 0
  constructor
  · rintro ⟨_, s', e, hv⟩
    exact (this.1 ⟨s', e, (hi s').1 hv⟩).2
  · intro hb
    obtain ⟨s', e, hr⟩ := this.2 ⟨hl, hb⟩
    exact ⟨hl, s', e, (hi s').2 hr⟩

/-- All bits set. -/
example : AcceptsSig (⟨1, 1, 0⟩ : G1 (FpV adx)) [97, 98, 99] (List.replicate 96 255) := by
  obtain ⟨h, -, h0⟩ := strings_infinity (adx := adx)
  exact (C77_infinity _ _ _ h h0 _ List.length_replicate).2 (by decide +kernel)

/-- C77: the same for keys other than infinity and messages that do not hash to infinity. -/
theorem C77_key (pk : G1 (FpV adx)) (m : List UInt8) (s e : G2 (FpV adx)) (he : fromMessage m ciphersuiteId = some e)
    (he0 : e.isZero = false) (h : verify pk m s = some true) (h0 : pk.isZero = false) (bs : List UInt8)
    (hl : bs.length = 48) :
    AcceptsKey m s bs ↔ bs = G1.toCompressedBytesBE pk ∨
      (beVal (G1.toCompressedBytesBE pk) % 2 ^ 381 + p < 2 ^ 381 ∧ beVal bs = beVal (G1.toCompressedBytesBE pk) + p) := by
  obtain ⟨P, hP, hi⟩ := accepted_key_iff he he0 h
  have hP0 : P ≠ 0 := fun e => by rw [hP.isZero_iff.2 e] at h0; exact Bool.noConfusion h0
  rw [← strings1 hP hP0 hl]
  exact ⟨fun ⟨_, s', e, hv⟩ => ⟨s', e, (hi s').1 hv⟩, fun ⟨s', e, hr⟩ => ⟨hl, s', e, (hi s').2 hr⟩⟩

example : ∃ s : G2 (FpV adx), AcceptsKey [97, 98, 99] s (G1.toCompressedBytesBE (Keys.publicKey [3, 0, 0, 0] : G1 (FpV adx))) := by
  obtain ⟨e, s, he, he0, h, -, h0⟩ := strings_case (adx := adx)
  have hr := Keys.publicKey_rep (K := FpV adx) [3, 0, 0, 0]
  refine ⟨s, (C77_key _ _ s e he he0 h h0 _ (G1.encode hr fun e0 => ?_).1).2 (.inl rfl)⟩
  rw [hr.isZero_iff.2 e0] at h0
  exact Bool.noConfusion h0

/-- C77: if the key is infinity, the accepted strings are those with the two top bits set. -/
theorem C77_key_infinity (pk : G1 (FpV adx)) (m : List UInt8) (s e : G2 (FpV adx)) (he : fromMessage m ciphersuiteId = some e)
    (he0 : e.isZero = false) (h : verify pk m s = some true) (h0 : pk.isZero = true) (bs : List UInt8) (hl : bs.length = 48) :
    AcceptsKey m s bs ↔ 2 ^ 383 + 2 ^ 382 ≤ beVal bs := by
  obtain ⟨P, hP, hi⟩ := accepted_key_iff he he0 h
  obtain rfl := hP.isZero_iff.1 h0
  have := (C28_exact adx bs).1 hl 0
  constructor
  · rintro ⟨_, s', e, hv⟩
    exact (this.1 ⟨s', e, (hi s').1 hv⟩).2
  · intro hb
    obtain ⟨s', e, hr⟩ := this.2 ⟨hl, hb⟩
    exact ⟨hl, s', e, (hi s').2 hr⟩

example : AcceptsKey [97, 98, 99] (⟨1, 1, 0⟩ : G2 (FpV adx)) (List.replicate 48 255) := by
  obtain ⟨h, h0, -⟩ := strings_infinity (adx := adx)
  obtain ⟨e, -, he, he0, -⟩ := strings_case (adx := adx)
  exact (C77_key_infinity _ _ _ e he he0 h h0 _ List.length_replicate).2 (by decide +kernel)

/-- C77: in affine form exactly one string of a key is accepted, infinity included. -/
theorem C77_key_affine (mont : Bool) (pk : G1 (FpV adx)) (m : List UInt8) (s e : G2 (FpV adx))
    (he : fromMessage m ciphersuiteId = some e) (he0 : e.isZero = false) (h : verify pk m s = some true)
    (bs : List UInt8) (hl : bs.length = 96) :
    (∃ a : G1 (FpV adx), Jac.fromAffineBytes 48 (FpV.fromBytesLE adx mont) FpC.B true bs = some a ∧
      verify a m s = some true) ↔ bs = pk.toAffineBytes 48 (FpV.toBytesLE adx mont) := by
  obtain ⟨P, hP, hi⟩ := accepted_key_iff he he0 h
  have hc := (C26_affine_g1 adx mont).2
  obtain ⟨s', e, hr⟩ := (hc.dec_enc pk P hP).2
  constructor
  · rintro ⟨t, et, hv⟩
    rw [← hc.enc_dec bs t hl et]
    exact ((C58_encodings (adx := adx) mont).1 t pk ⟨P, (hi t).1 hv, hP⟩).2.1
  · rintro rfl
    exact ⟨s', e, (hi s').2 hr⟩

example (mont : Bool) : ∃ (s : G2 (FpV adx)) (a : G1 (FpV adx)), Jac.fromAffineBytes 48 (FpV.fromBytesLE adx mont) FpC.B true
    ((Keys.publicKey [3, 0, 0, 0] : G1 (FpV adx)).toAffineBytes 48 (FpV.toBytesLE adx mont)) = some a ∧
      verify a [97, 98, 99] s = some true := by
  obtain ⟨e, s, he, he0, h, -, -⟩ := strings_case (adx := adx)
  have hl := ((C26_affine_g1 adx mont).2.dec_enc _ _ (Keys.publicKey_rep [3, 0, 0, 0])).1
  exact ⟨s, (C77_key_affine mont _ _ s e he he0 h _ hl).2 rfl⟩

/-- C77: in affine form exactly one string is accepted, infinity included. -/
theorem C77_affine (mont : Bool) (pk : G1 (FpV adx)) (m : List UInt8) (s : G2 (FpV adx)) (h : verify pk m s = some true)
    (bs : List UInt8) (hl : bs.length = 192) :
    (∃ s' : G2 (FpV adx), Jac.fromAffineBytes 96 (Fp2.fromBytesLE (FpV.fromBytesLE adx mont)) Fp2.B true bs = some s' ∧
      verify pk m s' = some true) ↔ bs = s.toAffineBytes 96 (Fp2.toBytesLE (FpV.toBytesLE adx mont)) := by
  obtain ⟨S, hS, hi⟩ := accepted_iff h
  have hc := (C26_affine_g2 adx mont).2
  obtain ⟨s', e, hr⟩ := (hc.dec_enc s S hS).2
  constructor
  · rintro ⟨t, et, hv⟩
    rw [← hc.enc_dec bs t hl et]
    exact ((C58_encodings (adx := adx) mont).2 t s ⟨S, (hi t).1 hv, hS⟩).2.1
  · rintro rfl
    exact ⟨s', e, (hi s').2 hr⟩

/-- The string of infinity, 192 zeros, is not accepted for the key 3. -/
example (mont : Bool) : ∃ s : G2 (FpV adx), verify (Keys.publicKey [3, 0, 0, 0] : G1 (FpV adx)) [97, 98, 99] s = some true ∧
    ((∃ s' : G2 (FpV adx), Jac.fromAffineBytes 96 (Fp2.fromBytesLE (FpV.fromBytesLE adx mont)) Fp2.B true (List.replicate 192 0) = some s' ∧
      verify (Keys.publicKey [3, 0, 0, 0] : G1 (FpV adx)) [97, 98, 99] s' = some true) →
      List.replicate 192 0 = s.toAffineBytes 96 (Fp2.toBytesLE (FpV.toBytesLE adx mont))) := by
  obtain ⟨e, s, -, -, h, -, -⟩ := strings_case (adx := adx)
  exact ⟨s, h, (C77_affine mont _ _ s h _ List.length_replicate).1⟩

/-- C77: a valid signature with room has a second string that everybody can compute from the first; without room it has
none. -/
theorem C77_second (pk : G1 (FpV adx)) (m : List UInt8) (s : G2 (FpV adx)) (h : verify pk m s = some true)
    (h0 : s.isZero = false) :
    (beVal (G2.toCompressedBytesBE s) / 2 ^ 384 % 2 ^ 381 + p < 2 ^ 381 →
      ∃ bs, bs ≠ G2.toCompressedBytesBE s ∧ beVal bs = beVal (G2.toCompressedBytesBE s) + p * 2 ^ 384 ∧
        {bs | AcceptsSig pk m bs} = {G2.toCompressedBytesBE s, bs}) ∧
    (¬ beVal (G2.toCompressedBytesBE s) / 2 ^ 384 % 2 ^ 381 + p < 2 ^ 381 →
      {bs | AcceptsSig pk m bs} = {G2.toCompressedBytesBE s}) := by
  obtain ⟨S, hS, -⟩ := accepted_iff h
  have hS0 : S ≠ 0 := fun e => by rw [hS.isZero_iff.2 e] at h0; exact Bool.noConfusion h0
  have hl : (G2.toCompressedBytesBE s).length = 96 := (G2.encode hS hS0).1
  have hi := C77_signature pk m s h h0
  generalize G2.toCompressedBytesBE s = v at *
  constructor
  · intro hr
    obtain ⟨bs, h1, h2, h3⟩ := second_exists hl hr
    refine ⟨bs, h3, h2, Set.ext fun x => ⟨fun hx => ?_, ?_⟩⟩
    · rcases (hi x hx.1).1 hx with rfl | ⟨-, h4⟩
      · exact Or.inl rfl
      · exact Or.inr (beVal_inj (hx.1.trans h1.symm) (h4.trans h2.symm))
    · rintro (rfl | rfl)
      · exact (hi _ hl).2 (.inl rfl)
      · exact (hi _ h1).2 (.inr ⟨hr, h2⟩)
  · intro hr
    refine Set.ext fun x => ⟨fun hx => ?_, ?_⟩
    · rcases (hi x hx.1).1 hx with rfl | ⟨h4, -⟩
      · exact rfl
      · exact absurd h4 hr
    · rintro rfl
      exact (hi _ hl).2 (.inl rfl)

/-- At most two strings. -/
example : {bs | AcceptsSig (Keys.publicKey [3, 0, 0, 0] : G1 (FpV adx)) [97, 98, 99] bs}.ncard ≤ 2 := by
  obtain ⟨e, s, -, -, h, h0, -⟩ := strings_case (adx := adx)
  obtain ⟨h1, h2⟩ := C77_second _ _ s h h0
  by_cases hr : beVal (G2.toCompressedBytesBE s) / 2 ^ 384 % 2 ^ 381 + p < 2 ^ 381
  · obtain ⟨bs, hne, -, e⟩ := h1 hr
    rw [e, Set.ncard_pair hne.symm]
  · rw [h2 hr, Set.ncard_singleton]
    decide

/-- C77: for every message that does not hash to infinity there are keys whose signature has two strings, and keys whose
signature has one. -/
theorem C77_both (m : List UInt8) (e : G2 (FpV adx)) (he : fromMessage m ciphersuiteId = some e) (he0 : e.isZero = false) :
    (∃ (sk : List UInt64), sk.length = 4 ∧ wordsVal sk < q ∧
      {bs | AcceptsSig (Keys.publicKey sk : G1 (FpV adx)) m bs}.ncard = 2) ∧
    (∃ (sk : List UInt64), sk.length = 4 ∧ wordsVal sk < q ∧
      {bs | AcceptsSig (Keys.publicKey sk : G1 (FpV adx)) m bs}.ncard = 1) := by
  obtain ⟨r1, r2⟩ := room (FpV adx)
  constructor
  · obtain ⟨sk, h1, h2, s, h3, h4, h5⟩ := signature_reaches he he0 (t := (G2.one : G2 (FpV adx)).scale [5, 0, 0, 0])
      (Jac.scale_rep (goodCurve2 _) G2.one_rep _) (smul_smul_zero (q_smul_gen2 _) _) five_gen2
    rw [← h5] at r1
    obtain ⟨bs, hne, -, hset⟩ := (C77_second _ m s (C45_sign sk m s h3) h4).1 r1
    exact ⟨sk, h1, h2, by rw [hset, Set.ncard_pair hne.symm]⟩
  · obtain ⟨sk, h1, h2, s, h3, h4, h5⟩ := signature_reaches he he0 (t := (G2.one : G2 (FpV adx)))
      G2.one_rep (q_smul_gen2 _) (gen2_ne_zero _)
    rw [← h5] at r2
    have hset := (C77_second _ m s (C45_sign sk m s h3) h4).2 r2
    exact ⟨sk, h1, h2, by rw [hset, Set.ncard_singleton]⟩

example : ∃ (sk : List UInt64), sk.length = 4 ∧ wordsVal sk < q ∧
    {bs | AcceptsSig (Keys.publicKey sk : G1 (FpV adx)) [97, 98, 99] bs}.ncard = 2 := by
  obtain ⟨e, he, h0⟩ := hash_abc_ne (FpV adx)
  exact (C77_both _ e he h0).1

end Bls.Props
