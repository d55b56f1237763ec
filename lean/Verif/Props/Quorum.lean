import Verif.Proof.Quorum
import Verif.Proof.HashValues
import Verif.Props.Signatures

/-!
# C79: certificates of a group with a bitmap

A certificate is a signature with bitmaps `sel`, `sel'` that say which members of the list voted with the first message and
which with the second. It is tested with the keys that `aggregate_public_keys` makes of the selected ones.
-/

namespace Bls.Props
open Bls Sig

attribute [local irreducible] p q hEff2

variable {adx : Bool} {T : Type}

/-- C79: votes put together by the same bitmaps as the keys are accepted. -/
theorem C79_honest (xs : List T) (sk : T → List UInt64) (m m' : List UInt8) (hm : m.length < 2 ^ 31) (hm' : m'.length < 2 ^ 31)
    (g g' : T → G2 (FpV adx)) (hg : ∀ x ∈ xs, sign (sk x) m = some (g x)) (hg' : ∀ x ∈ xs, sign (sk x) m' = some (g' x))
    (sel sel' : T → ℕ → Bool) :
    aggregateVerify [Keys.aggregateIf xs (fun x => Keys.publicKey (sk x)) sel, Keys.aggregateIf xs (fun x => Keys.publicKey (sk x)) sel']
      [m, m'] (Keys.aggregate [Keys.aggregateIf xs g sel, Keys.aggregateIf xs g' sel']) false = some true :=
  quorum_honest hm hm' hg hg' sel sel'

/-- C79: another bitmap for the first message is accepted exactly if the keys it selects have the same sum. -/
theorem C79_bitmap (xs : List T) (f : T → G1 (FpV adx)) (hf : ∀ x ∈ xs, Member1 (f x)) (sel sel' other : T → ℕ → Bool)
    (m m' : List UInt8) (hm : m.length < 2 ^ 31) (hm' : m'.length < 2 ^ 31) (s e : G2 (FpV adx))
    (he : fromMessage m ciphersuiteId = some e) (h0 : e.isZero = false)
    (h : aggregateVerify [Keys.aggregateIf xs f sel, Keys.aggregateIf xs f sel'] [m, m'] s false = some true) :
    aggregateVerify [Keys.aggregateIf xs f other, Keys.aggregateIf xs f sel'] [m, m'] s false =
      some ((Keys.aggregateIf xs f other).equal (Keys.aggregateIf xs f sel)) :=
  quorum_other hf sel sel' other hm hm' he h0 h

/-- Members with the keys 3, 5 and 8: a certificate of the first two is also one of the third. -/
example : ∃ s : G2 (FpV adx), aggregateVerify
    [Keys.aggregateIf [3, 5, 8] (fun x => Keys.publicKey [x, 0, 0, 0]) (fun _ i => i == 2),
      Keys.aggregateIf [3, 5, 8] (fun x => Keys.publicKey [x, 0, 0, 0]) (fun _ _ => false)] [[97, 98, 99], [1]] s false =
    some ((Keys.aggregateIf [3, 5, 8] (fun x => (Keys.publicKey [x, 0, 0, 0] : G1 (FpV adx))) (fun _ i => i == 2)).equal
      (Keys.aggregateIf [3, 5, 8] (fun x => Keys.publicKey [x, 0, 0, 0]) (fun _ i => i != 2))) := by
  choose g hg using fun x : UInt64 => C45_sign_defined (adx := adx) [x, 0, 0, 0] [97, 98, 99] (by decide)
  choose g' hg' using fun x : UInt64 => C45_sign_defined (adx := adx) [x, 0, 0, 0] [1] (by decide)
  obtain ⟨e, he, h0⟩ := hash_abc_ne (FpV adx)
  have h := C79_honest [3, 5, 8] (fun x => [x, 0, 0, 0]) [97, 98, 99] [1] (by decide) (by decide) g g' (fun x _ => hg x)
    (fun x _ => hg' x) (fun _ i => i != 2) (fun _ _ => false)
  exact ⟨_, C79_bitmap [3, 5, 8] (fun x => Keys.publicKey [x, 0, 0, 0]) (fun x _ => publicKey_member _) (fun _ i => i != 2)
    (fun _ _ => false) (fun _ i => i == 2) _ _ (by decide) (by decide) _ e he h0 h⟩

/-- C79: the sums of the keys differ if the bitmaps differ at one place and the key there is not infinity. So a certificate with
one bit changed is rejected. -/
theorem C79_bit (xs : List T) (f : T → G1 (FpV adx)) (hf : ∀ x ∈ xs, Member1 (f x)) (sel sel' other : T → ℕ → Bool)
    (m m' : List UInt8) (hm : m.length < 2 ^ 31) (hm' : m'.length < 2 ^ 31) (s e : G2 (FpV adx))
    (he : fromMessage m ciphersuiteId = some e) (h0 : e.isZero = false) (i : ℕ) (hi : i < xs.length) (hk : (f xs[i]).isZero = false)
    (ho : ∀ k (h : k < xs.length), k ≠ i → other xs[k] k = sel xs[k] k) (hd : other xs[i] i ≠ sel xs[i] i)
    (h : aggregateVerify [Keys.aggregateIf xs f sel, Keys.aggregateIf xs f sel'] [m, m'] s false = some true) :
    aggregateVerify [Keys.aggregateIf xs f other, Keys.aggregateIf xs f sel'] [m, m'] s false = some false := by
  rw [quorum_other hf sel sel' other hm hm' he h0 h]
  exact congrArg some (quorum_flip hf sel other i hi hk ho hd)

/-- C79: a vote moved from the second message to the first makes the certificate invalid, unless both messages hash to the same
point. -/
theorem C79_move (xs : List T) (f : T → G1 (FpV adx)) (hf : ∀ x ∈ xs, Member1 (f x)) (sel sel' other other' : T → ℕ → Bool)
    (m m' : List UInt8) (hm : m.length < 2 ^ 31) (hm' : m'.length < 2 ^ 31) (s e e' : G2 (FpV adx))
    (he : fromMessage m ciphersuiteId = some e) (he' : fromMessage m' ciphersuiteId = some e') (i : ℕ) (hi : i < xs.length)
    (hk : (f xs[i]).isZero = false)
    (h1 : ∀ k (h : k < xs.length), k ≠ i → other xs[k] k = sel xs[k] k)
    (h2 : ∀ k (h : k < xs.length), k ≠ i → other' xs[k] k = sel' xs[k] k)
    (a1 : sel xs[i] i = false) (a2 : other xs[i] i = true) (a3 : sel' xs[i] i = true) (a4 : other' xs[i] i = false)
    (h : aggregateVerify [Keys.aggregateIf xs f sel, Keys.aggregateIf xs f sel'] [m, m'] s false = some true) :
    aggregateVerify [Keys.aggregateIf xs f other, Keys.aggregateIf xs f other'] [m, m'] s false = some (e.equal e') :=
  quorum_move hf hm hm' he he' i hi hk h1 (fun x k hk => (h2 x k hk).symm) a1 a2 a4 a3 h

/-- Three members with the keys 3, 5 and 7: the first and the last vote for `abc`, the second for `1`. The certificate is accepted;
with the bit of the last one cleared it is rejected. -/
example : ∃ s : G2 (FpV adx),
    aggregateVerify [Keys.aggregateIf [3, 5, 7] (fun x => Keys.publicKey [x, 0, 0, 0]) (fun _ i => i != 1),
      Keys.aggregateIf [3, 5, 7] (fun x => Keys.publicKey [x, 0, 0, 0]) (fun _ i => i == 1)] [[97, 98, 99], [1]] s false = some true ∧
    aggregateVerify [Keys.aggregateIf [3, 5, 7] (fun x => Keys.publicKey [x, 0, 0, 0]) (fun _ i => i == 0),
      Keys.aggregateIf [3, 5, 7] (fun x => Keys.publicKey [x, 0, 0, 0]) (fun _ i => i == 1)] [[97, 98, 99], [1]] s false = some false := by
  choose g hg using fun x : UInt64 => C45_sign_defined (adx := adx) [x, 0, 0, 0] [97, 98, 99] (by decide)
  choose g' hg' using fun x : UInt64 => C45_sign_defined (adx := adx) [x, 0, 0, 0] [1] (by decide)
  obtain ⟨e, he, h0⟩ := hash_abc_ne (FpV adx)
  have h := C79_honest [3, 5, 7] (fun x => [x, 0, 0, 0]) [97, 98, 99] [1] (by decide) (by decide) g g' (fun x _ => hg x)
    (fun x _ => hg' x) (fun _ i => i != 1) (fun _ i => i == 1)
  refine ⟨_, h, ?_⟩
  refine C79_bit [3, 5, 7] (fun x => Keys.publicKey [x, 0, 0, 0]) (fun x _ => publicKey_member _) (fun _ i => i != 1) (fun _ i => i == 1)
    (fun _ i => i == 0) _ _ (by decide) (by decide) _ e he h0 2 (by decide) ?_ (by decide) (by decide) h
  · show (Keys.publicKey [7, 0, 0, 0] : G1 (FpV adx)).isZero = false
    rw [Bool.eq_false_iff, Ne, (Keys.publicKey_rep [7, 0, 0, 0]).isZero_iff, Keys.smul_gen1_eq_zero_iff]
    decide +kernel

/-- The same certificate with the vote of the second member moved to `abc` is accepted only if the hashes are the same. -/
example : ∃ s e e' : G2 (FpV adx), fromMessage [97, 98, 99] ciphersuiteId = some e ∧ fromMessage [1] ciphersuiteId = some e' ∧
    aggregateVerify [Keys.aggregateIf [3, 5, 7] (fun x => Keys.publicKey [x, 0, 0, 0]) (fun _ i => i != 1),
      Keys.aggregateIf [3, 5, 7] (fun x => Keys.publicKey [x, 0, 0, 0]) (fun _ i => i == 1)] [[97, 98, 99], [1]] s false = some true ∧
    aggregateVerify [Keys.aggregateIf [3, 5, 7] (fun x => Keys.publicKey [x, 0, 0, 0]) (fun _ _ => true),
      Keys.aggregateIf [3, 5, 7] (fun x => Keys.publicKey [x, 0, 0, 0]) (fun _ _ => false)] [[97, 98, 99], [1]] s false =
        some (e.equal e') := by
  choose g hg using fun x : UInt64 => C45_sign_defined (adx := adx) [x, 0, 0, 0] [97, 98, 99] (by decide)
  choose g' hg' using fun x : UInt64 => C45_sign_defined (adx := adx) [x, 0, 0, 0] [1] (by decide)
  have h := C79_honest [3, 5, 7] (fun x => [x, 0, 0, 0]) [97, 98, 99] [1] (by decide) (by decide) g g' (fun x _ => hg x)
    (fun x _ => hg' x) (fun _ i => i != 1) (fun _ i => i == 1)
  refine ⟨_, _, _, hm_eq (by decide), hm_eq (by decide), h, ?_⟩
  refine C79_move [3, 5, 7] (fun x => Keys.publicKey [x, 0, 0, 0]) (fun x _ => publicKey_member _) (fun _ i => i != 1) (fun _ i => i == 1)
    (fun _ _ => true) (fun _ _ => false) _ _ (by decide) (by decide) _ _ _ (hm_eq (by decide)) (hm_eq (by decide)) 1 (by decide) ?_
    (by decide) (by decide) (by decide) (by decide) (by decide) (by decide) h
  show (Keys.publicKey [5, 0, 0, 0] : G1 (FpV adx)).isZero = false
  rw [Bool.eq_false_iff, Ne, (Keys.publicKey_rep [5, 0, 0, 0]).isZero_iff, Keys.smul_gen1_eq_zero_iff]
  decide +kernel

end Bls.Props
