import Verif.Proof.Augmented
import Verif.Proof.HashValues2
import Verif.Props.Binding
import Verif.Props.Same

/-!
# C70: messages extended by the public key

The repository has no function for it; its test program (`test/unittests.cpp:1978-1986`) appends the affine form of the public key to
the message before `sign` and `aggregate_verify`.
-/

namespace Bls.Props
open Bls Sig

attribute [local irreducible] p q hEff2

variable {adx : Bool}

/-- The message followed by the 96 bytes of the public key.
Calls: `g1::toAffineBytesBE` (src/g.cpp:154). -/
def augmented (m : List UInt8) (pk : G1 (FpV adx)) : List UInt8 := m ++ pk.toAffineBytes 48 (FpV.toBytesBE adx true)

/-- C70: the extended message determines the message and the key, whatever their lengths and coordinates. -/
theorem C70_injective (m m' : List UInt8) (pk pk' : G1 (FpV adx)) (h : pk.isOnCurve FpC.B = true) (h' : pk'.isOnCurve FpC.B = true) :
    augmented m pk = augmented m' pk' ↔ m = m' ∧ pk.equal pk' = true := by
  obtain ⟨P, r⟩ := G1.onCurve_iff.1 h
  obtain ⟨P', r'⟩ := G1.onCurve_iff.1 h'
  obtain ⟨l, a, e, k⟩ := (C26_affine_g1 adx true).1.dec_enc pk P r
  obtain ⟨l', a', e', k'⟩ := (C26_affine_g1 adx true).1.dec_enc pk' P' r'
  rw [Jac.equal_iff r r']
  constructor
  · intro he
    obtain ⟨h1, h2⟩ := List.append_inj' he (l.trans l'.symm)
    rw [h2, e', Option.some.injEq] at e
    subst e
    exact ⟨h1, k.unique k'⟩
  · rintro ⟨rfl, rfl⟩
    rw [augmented, augmented, SameOn.toAffineBytes ⟨P, r, r'⟩]

/-- The keys 3 and 5 and the messages `a` and `b`: three different extended messages. -/
example : augmented [97] (Keys.publicKey [3, 0, 0, 0] : G1 (FpV adx)) ≠ augmented [98] (Keys.publicKey [3, 0, 0, 0] : G1 (FpV adx)) ∧
    augmented [97] (Keys.publicKey [3, 0, 0, 0] : G1 (FpV adx)) ≠ augmented [97] (Keys.publicKey [5, 0, 0, 0] : G1 (FpV adx)) := by
  have hc : ∀ sk, (Keys.publicKey sk : G1 (FpV adx)).isOnCurve FpC.B = true :=
    fun sk => G1.onCurve_iff.2 ⟨_, Keys.publicKey_rep sk⟩
  rw [Ne, Ne, C70_injective _ _ _ _ (hc _) (hc _), C70_injective _ _ _ _ (hc _) (hc _), C42_injective, C42_injective]
  decide +kernel

/-- C70: signers with different public keys may sign the same messages: the aggregate of their signatures on the extended messages
passes `aggregate_verify` with the check for repeated messages. -/
theorem C70_honest (l : List (List UInt64 × List UInt8)) (sigs : List (G2 (FpV adx))) (hl : ∀ x ∈ l, x.2.length + 96 < 2 ^ 31)
    (hk : (l.map fun x => wordsVal x.1 % q).Nodup)
    (h : List.Forall₂ (fun x s => sign x.1 (augmented x.2 (Keys.publicKey x.1 : G1 (FpV adx))) = some s) l sigs) :
    aggregateVerify (l.map fun x => Keys.publicKey x.1) (l.map fun x => augmented x.2 (Keys.publicKey x.1 : G1 (FpV adx)))
      (Keys.aggregate sigs) true = some true := by
  have hr := fun sk => Keys.publicKey_rep (K := FpV adx) sk
  have hc : ∀ sk, (Keys.publicKey sk : G1 (FpV adx)).isOnCurve FpC.B = true := fun sk => G1.onCurve_iff.2 ⟨_, hr sk⟩
  have hlen : ∀ x : List UInt64 × List UInt8, (augmented x.2 (Keys.publicKey x.1 : G1 (FpV adx))).length = x.2.length + 96 :=
    fun x => by rw [augmented, List.length_append, ((C26_affine_g1 adx true).1.dec_enc _ _ (hr x.1)).1]
  have := C45_aggregate (adx := adx) (l.map fun x => (x.1, augmented x.2 (Keys.publicKey x.1 : G1 (FpV adx)))) sigs true ?_ ?_ ?_
  · rw [List.map_map, List.map_map] at this
    exact this
  · intro y hy
    obtain ⟨x, hx, rfl⟩ := List.mem_map.1 hy
    show (augmented x.2 (Keys.publicKey x.1 : G1 (FpV adx))).length < 2 ^ 31
    rw [hlen]; exact hl x hx
  · exact List.forall₂_map_left_iff.2 h
  · intro _
    rw [List.map_map]
    refine List.Nodup.map_on ?_ (List.Nodup.of_map _ hk)
    intro x hx y hy hxy
    obtain ⟨h1, h2⟩ := (C70_injective _ _ _ _ (hc x.1) (hc y.1)).1 hxy
    rw [Jac.equal_iff (hr x.1) (hr y.1), Keys.smul_gen1_eq_iff] at h2
    exact List.inj_on_of_nodup_map hk hx hy h2

/-- C70: without the extension the same check rejects every aggregate of two or more signers of one message. -/
theorem C70_needed (pks : List (G1 (FpV adx))) (m : List UInt8) (s : G2 (FpV adx)) (h : 2 ≤ pks.length) :
    aggregateVerify pks (List.replicate pks.length m) s true = some false :=
  C48_duplicate _ _ _ fun hd => by
    have := List.nodup_replicate.1 hd
    omega

/-- Two signers of the message `a`. -/
example (s : G2 (FpV adx)) : aggregateVerify [Keys.publicKey [3, 0, 0, 0], Keys.publicKey [5, 0, 0, 0]] [[97], [97]] s true = some false :=
  C70_needed [Keys.publicKey [3, 0, 0, 0], Keys.publicKey [5, 0, 0, 0]] [97] s le_rfl

/-- C70: the attack of C57 does not work on extended messages. Whoever publishes the key `x G - pk` and signs either of the two
extended messages with `x` is rejected, unless the two extended messages have the same hash or one of the keys is infinity. -/
theorem C70_rogue (pk : G1 (FpV adx)) (hpk : Member1 pk) (x : List UInt64) (m m' : List UInt8) (s e e' : G2 (FpV adx)) (dup : Bool)
    (hm : m.length + 96 < 2 ^ 31) (hm' : m'.length + 96 < 2 ^ 31)
    (he : fromMessage (augmented m pk) ciphersuiteId = some e)
    (he' : fromMessage (augmented m' ((Keys.publicKey x : G1 (FpV adx)).subtract pk)) ciphersuiteId = some e')
    (hs : sign x (augmented m pk) = some s ∨ sign x (augmented m' ((Keys.publicKey x : G1 (FpV adx)).subtract pk)) = some s)
    (h0 : pk.isZero = false) (h1 : ((Keys.publicKey x : G1 (FpV adx)).subtract pk).isZero = false) (hne : e.equal e' = false) :
    aggregateVerify [pk, (Keys.publicKey x : G1 (FpV adx)).subtract pk]
      [augmented m pk, augmented m' ((Keys.publicKey x : G1 (FpV adx)).subtract pk)] s dup = some false := by
  obtain ⟨P, r⟩ := G1.onCurve_iff.1 hpk.1
  have rr := Jac.sub_rep (goodCurve1 (FpV adx)) (Keys.publicKey_rep (K := FpV adx) x) r
  have hl : (augmented m pk).length < 2 ^ 31 := by
    rw [augmented, List.length_append, ((C26_affine_g1 adx true).1.dec_enc _ _ r).1]; exact hm
  have hl' : (augmented m' ((Keys.publicKey x : G1 (FpV adx)).subtract pk)).length < 2 ^ 31 := by
    rw [augmented, List.length_append, ((C26_affine_g1 adx true).1.dec_enc _ _ rr).1]; exact hm'
  obtain ⟨b, eb, -⟩ := C48_decision [pk, (Keys.publicKey x : G1 (FpV adx)).subtract pk]
      [augmented m pk, augmented m' ((Keys.publicKey x : G1 (FpV adx)).subtract pk)] s dup rfl (by
        intro y hy
        simp only [List.mem_cons, List.not_mem_nil, or_false] at hy
        rcases hy with rfl | rfl
        · exact hl
        · exact hl')
  cases b with
  | false => exact eb
  | true =>
    have := rogue_two hpk x hl hl' dup he he' eb
    rcases hs with hs | hs
    · exact ((this.1 hs).elim (fun h => by rw [h1] at h; cases h) fun h => by rw [hne] at h; cases h)
    · exact ((this.2 hs).elim (fun h => by rw [h0] at h; cases h) fun h => by rw [hne] at h; cases h)

/-- An attacker who knows 3 cannot sign the message `a` for the victim with the key 1. -/
example : ∃ s : G2 (FpV adx), sign [3, 0, 0, 0] (augmented [97] (Keys.publicKey [1, 0, 0, 0] : G1 (FpV adx))) = some s ∧
    aggregateVerify [Keys.publicKey [1, 0, 0, 0], (Keys.publicKey [3, 0, 0, 0] : G1 (FpV adx)).subtract (Keys.publicKey [1, 0, 0, 0])]
      [augmented [97] (Keys.publicKey [1, 0, 0, 0] : G1 (FpV adx)),
       augmented [97] ((Keys.publicKey [3, 0, 0, 0] : G1 (FpV adx)).subtract (Keys.publicKey [1, 0, 0, 0]))] s false = some false := by
  obtain ⟨e, e', he, he', hne⟩ := hash_aug_differ (FpV adx)
  obtain ⟨e1, e2, z1, z2⟩ := aug_bytes (FpV adx)
  replace e1 : augmented [97] (Keys.publicKey [1, 0, 0, 0] : G1 (FpV adx)) = aug1 := e1
  replace e2 : augmented [97] ((Keys.publicKey [3, 0, 0, 0] : G1 (FpV adx)).subtract (Keys.publicKey [1, 0, 0, 0])) = aug2 := e2
  rw [← e1] at he
  rw [← e2] at he'
  obtain ⟨s, hs⟩ := C45_sign_defined (adx := adx) [1, 0, 0, 0] [97] (by decide)
  have hk := (C46_valid _ _ _ (C45_sign _ _ _ hs)).1
  have hs' : sign [3, 0, 0, 0] (augmented [97] (Keys.publicKey [1, 0, 0, 0] : G1 (FpV adx))) = some (e.scale [3, 0, 0, 0]) := by
    rw [sign, he, Option.map_some]
  exact ⟨_, hs', C70_rogue _ hk [3, 0, 0, 0] [97] [97] _ e e' false (by decide) (by decide) he he' (Or.inl hs') z1 z2 hne⟩

/-- Two signers of the same message. -/
example (s s' : G2 (FpV adx)) (h : sign [3, 0, 0, 0] (augmented [97] (Keys.publicKey [3, 0, 0, 0] : G1 (FpV adx))) = some s)
    (h' : sign [5, 0, 0, 0] (augmented [97] (Keys.publicKey [5, 0, 0, 0] : G1 (FpV adx))) = some s') :
    aggregateVerify [Keys.publicKey [3, 0, 0, 0], Keys.publicKey [5, 0, 0, 0]]
      [augmented [97] (Keys.publicKey [3, 0, 0, 0] : G1 (FpV adx)), augmented [97] (Keys.publicKey [5, 0, 0, 0] : G1 (FpV adx))]
      (Keys.aggregate [s, s']) true = some true :=
  C70_honest [([3, 0, 0, 0], [97]), ([5, 0, 0, 0], [97])] [s, s'] (by simp) (by
    rw [List.map_cons, List.map_cons, List.map_nil, List.nodup_cons]; decide +kernel) (.cons h (.cons h' .nil))

end Bls.Props
