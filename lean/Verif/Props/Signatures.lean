import Verif.Proof.Signatures2
import Verif.Props.Bilinear

/-!
# C44-C49: signatures

`none` is undefined behaviour. `Member1`, `Member2`: the tests `isOnCurve` and `inCorrectSubgroup`. `IsHash`: hash to the
curve of RFC 9380 (`Spec/Signatures.lean`), over any function `H` that satisfies the definition of SHA-256. Lengths are
passed as `int`: messages of `2^31` bytes and more are outside the contract (`C44_long_message`, `C44_truncation`).
-/

namespace Bls.Props
open Bls Sig Rfc Pairing

attribute [local irreducible] p q hEff2

variable {adx : Bool}

section C44

variable {H : List UInt8 → List UInt8} (hH : ∀ m, Fips.IsSha256 m (H m))

include hH in
/-- C44, in part: for messages shorter than `2^31` bytes and tags of at most 255 bytes `fromMessage` is defined, its result
is the point of RFC 9380 and lies in the prime-order subgroup. Missing: longer messages, for which it is false
(`C44_long_message`). -/
theorem C44_partial (msg dst : List UInt8) (hmsg : msg.length < 2 ^ 31) (hdst : dst.length ≤ 255) :
    ∃ a : G2 (FpV adx), fromMessage msg dst = some a ∧ Member2 a ∧ ∃ P, IsHash H msg dst P ∧ a.Rep P := by
  obtain ⟨a, e, P, hP, r⟩ := fromMessage_rep (K := FpV adx) hH msg dst hmsg hdst
  exact ⟨a, e, member2.2 ⟨P, r, hash_order hP⟩, P, hP, r⟩

/-- The message `abc`. -/
example : ∃ a : G2 (FpV adx), fromMessage [97, 98, 99] ciphersuiteId = some a ∧ Member2 a := by
  obtain ⟨a, e, h, -⟩ := C44_partial (adx := adx) sha_spec [97, 98, 99] ciphersuiteId (by decide) id_length.1
  exact ⟨a, e, h⟩

/-- The specification determines the point. -/
theorem C44_unique (msg dst : List UInt8) (P P' : E2 (FpV adx)) (h : IsHash H msg dst P) (h' : IsHash H msg dst P') : P = P' :=
  hash_unique h h'

/-- Whatever `C44_partial` finds for the message `abc` is the same. -/
example (a b : G2 (FpV adx)) (P P' : E2 (FpV adx)) (h : IsHash (fun m => Sha256.hash [m]) [97, 98, 99] ciphersuiteId P)
    (h' : IsHash (fun m => Sha256.hash [m]) [97, 98, 99] ciphersuiteId P') (ha : a.Rep P) (hb : b.Rep P') : a.equal b = true :=
  (Jac.equal_iff ha hb).2 (C44_unique _ _ P P' h h')
example : ∃ P : E2 (FpV adx), IsHash (fun m => Sha256.hash [m]) [97, 98, 99] ciphersuiteId P := by
  obtain ⟨-, -, -, P, h, -⟩ := C44_partial (adx := adx) sha_spec [97, 98, 99] ciphersuiteId (by decide) id_length.1
  exact ⟨P, h⟩

end C44

/-- The negation of C44: messages whose length is at least `2^31` modulo `2^32` are undefined behaviour. -/
theorem C44_long_message (msg dst : List UInt8) (h : 2 ^ 31 ≤ msg.length % 2 ^ 32) :
    (fromMessage msg dst : Option (G2 (FpV adx))) = none := fromMessage_ub msg dst h

example : 2 ^ 31 ≤ (List.replicate (2 ^ 31) (0 : UInt8)).length % 2 ^ 32 := by rw [List.length_replicate]; decide

/-- The negation of C44: from `2^32` bytes on only a prefix of the message is hashed. -/
theorem C44_truncation (msg dst : List UInt8) (h : msg.length % 2 ^ 32 < 2 ^ 31) :
    (fromMessage msg dst : Option (G2 (FpV adx))) = fromMessage (msg.take (msg.length % 2 ^ 32)) dst :=
  fromMessage_take msg dst h

/-- A message of `2^32 + 3` bytes has the hash of its first three bytes. -/
example : (fromMessage (List.replicate (2 ^ 32 + 3) 7) ciphersuiteId : Option (G2 (FpV adx))) =
    fromMessage (List.replicate 3 7) ciphersuiteId := by
  rw [C44_truncation _ _ (by rw [List.length_replicate]; decide), List.length_replicate, List.take_replicate]
  rfl

/-- Every message of `2^32` bytes has the hash of the empty message. -/
theorem C44_collision (msg dst : List UInt8) (h : msg.length = 2 ^ 32) :
    (fromMessage msg dst : Option (G2 (FpV adx))) = fromMessage [] dst := by
  rw [C44_truncation msg dst (by rw [h]; decide), h, Nat.mod_self, List.take_zero]

example : (fromMessage (List.replicate (2 ^ 32) 7) ciphersuiteId : Option (G2 (FpV adx))) =
    fromMessage (List.replicate (2 ^ 32) 8) ciphersuiteId := by
  rw [C44_collision _ _ List.length_replicate, C44_collision _ _ List.length_replicate]

/-- Tags longer than 255 bytes are undefined behaviour (an uninitialised buffer is read). -/
theorem C44_long_tag (msg dst : List UInt8) (h : 255 < dst.length) (h' : dst.length < 2 ^ 31) :
    (fromMessage msg dst : Option (G2 (FpV adx))) = none := by
  unfold fromMessage Hash.xmd
  dsimp only
  rw [if_pos]
  · rfl
  · right; right
    rw [Hash.toInt, Nat.mod_eq_of_lt (by omega), if_pos h']
    omega

example : (fromMessage [97, 98, 99] (List.replicate 256 65) : Option (G2 (FpV adx))) = none :=
  C44_long_tag _ _ (by rw [List.length_replicate]; decide) (by rw [List.length_replicate]; decide)

/-! ## C45 -/

/-- C45: a signature made with `sign` verifies, for every key and every message `sign` is defined for. -/
theorem C45_sign (sk : List UInt64) (m : List UInt8) (s : G2 (FpV adx)) (h : sign sk m = some s) :
    verify (Keys.publicKey sk) m s = some true := by
  cases e : (fromMessage m ciphersuiteId : Option (G2 (FpV adx))) with
  | none => rw [sign, e] at h; exact absurd h (by simp)
  | some a =>
    obtain ⟨P, r, o⟩ := fromMessage_some id_length.1 e
    rw [sign, e, Option.map_some] at h
    obtain rfl := Option.some.inj h
    rw [verify_eq, e, Option.bind_some]
    obtain ⟨b, e1, hb⟩ := core_iff (Keys.publicKey sk) (a.scale sk) r o
    rw [e1, hb.2]
    refine ⟨wordsVal sk % q, Nat.mod_lt _ q_prime.pos, ?_, ?_⟩
    · rw [smul_mod (q_smul_gen1 _)]; exact Keys.publicKey_rep sk
    · rw [smul_mod o]; exact Jac.scale_rep (goodCurve2 _) r sk

/-- C45: `sign` is defined for every message shorter than `2^31` bytes. -/
theorem C45_sign_defined (sk : List UInt64) (m : List UInt8) (h : m.length < 2 ^ 31) :
    ∃ s : G2 (FpV adx), sign sk m = some s := by
  obtain ⟨_, _, s, e, _⟩ := sign_rep (K := FpV adx) sha_spec sk h
  exact ⟨s, e⟩

/-- The key 3 and the message `abc`. -/
example : ∃ s : G2 (FpV adx), sign [3, 0, 0, 0] [97, 98, 99] = some s ∧ verify (Keys.publicKey [3, 0, 0, 0]) [97, 98, 99] s = some true := by
  obtain ⟨s, e⟩ := C45_sign_defined (adx := adx) [3, 0, 0, 0] [97, 98, 99] (by decide)
  exact ⟨s, e, C45_sign _ _ s e⟩

/-- C45: proofs of possession are defined and verify. -/
theorem C45_pop (sk : List UInt64) : ∃ s : G2 (FpV adx), popProve sk = some s ∧ popVerify (Keys.publicKey sk) s = some true := by
  obtain ⟨P, hP, s, e, r⟩ := popProve_rep (K := FpV adx) sha_spec sk
  refine ⟨s, e, ?_⟩
  obtain ⟨P', hP', b, e1, hb⟩ := popVerify_iff (K := FpV adx) sha_spec (Keys.publicKey sk) s
  obtain rfl := hash_unique hP hP'
  rw [e1, hb.2]
  refine ⟨wordsVal sk % q, Nat.mod_lt _ q_prime.pos, ?_, ?_⟩
  · rw [smul_mod (q_smul_gen1 _)]; exact Keys.publicKey_rep sk
  · rw [smul_mod (hash_order hP)]; exact r

/-- C45: the aggregate of honest signatures passes `aggregate_verify`; with the duplicate check the messages have to be
different. -/
theorem C45_aggregate (l : List (List UInt64 × List UInt8)) (sigs : List (G2 (FpV adx))) (dup : Bool)
    (hl : ∀ x ∈ l, x.2.length < 2 ^ 31) (h : List.Forall₂ (fun x s => sign x.1 x.2 = some s) l sigs)
    (hd : dup = true → (l.map Prod.snd).Nodup) :
    aggregateVerify (l.map fun x => Keys.publicKey x.1) (l.map Prod.snd) (Keys.aggregate sigs) dup = some true :=
  aggregate_honest l sigs dup hl h hd

/-- C45: the aggregate of honest signatures on a common message passes `pop_fast_aggregate_verify`. -/
theorem C45_fast (sks : List (List UInt64)) (m : List UInt8) (sigs : List (G2 (FpV adx))) (h0 : sks ≠ [])
    (h : List.Forall₂ (fun sk s => sign sk m = some s) sks sigs) :
    popFastAggregateVerify (sks.map Keys.publicKey) m (Keys.aggregate sigs) = some true :=
  fast_honest sks m sigs h0 h

/-- Two signers of the same message. -/
example (s s' : G2 (FpV adx)) (h : sign [3, 0, 0, 0] [97] = some s) (h' : sign [5, 0, 0, 0] [97] = some s') :
    popFastAggregateVerify [Keys.publicKey [3, 0, 0, 0], Keys.publicKey [5, 0, 0, 0]] [97] (Keys.aggregate [s, s']) = some true :=
  C45_fast [[3, 0, 0, 0], [5, 0, 0, 0]] [97] [s, s'] (by simp) (.cons h (.cons h' .nil))

/-! ## C46 -/

/-- C46: `verify` accepts exactly the points that `sign` produces with the secret key of `pk`. -/
theorem C46_exact (pk : G1 (FpV adx)) (m : List UInt8) (s : G2 (FpV adx)) : verify pk m s = some true ↔
    pk.isOnCurve FpC.B = true ∧ s.isOnCurve Fp2.B = true ∧ ∃ sk, sk.length = 4 ∧ wordsVal sk < q ∧
      pk.equal (Keys.publicKey sk) = true ∧ ∃ s', sign sk m = some s' ∧ s.equal s' = true := verify_exact pk m s

/-- C46: two accepted signatures for the same key and message are the same point. -/
theorem C46_unique (pk : G1 (FpV adx)) (m : List UInt8) (s s' : G2 (FpV adx)) (h : verify pk m s = some true)
    (h' : verify pk m s' = some true) : s.equal s' = true := verify_unique h h'

/-- C46: accepted keys and signatures are on the curve and in the subgroup. -/
theorem C46_valid (pk : G1 (FpV adx)) (m : List UInt8) (s : G2 (FpV adx)) (h : verify pk m s = some true) :
    Member1 pk ∧ Member2 s := by
  obtain ⟨a, P, n, _, _, o, hn, h1, h2⟩ := (verify_true_iff pk m s).1 h
  exact ⟨member1.2 ⟨n, hn, h1⟩, member2.2 ⟨_, h2, smul_smul_zero o n⟩⟩

example : Member1 (Keys.publicKey [3, 0, 0, 0] : G1 (FpV adx)) := by
  obtain ⟨s, e⟩ := C45_sign_defined (adx := adx) [3, 0, 0, 0] [97, 98, 99] (by decide)
  exact (C46_valid _ _ s (C45_sign _ _ s e)).1

/-- C46 with the hash of RFC 9380: with `pk = n G` exactly `n H(m)` is accepted. -/
theorem C46_spec {H : List UInt8 → List UInt8} (hH : ∀ m, Fips.IsSha256 m (H m)) (pk : G1 (FpV adx)) (m : List UInt8)
    (s : G2 (FpV adx)) (hm : m.length < 2 ^ 31) : ∃ P, IsHash H m ciphersuiteId P ∧ ∃ b, verify pk m s = some b ∧
      (b = true ↔ ∃ n < q, pk.Rep (n • gen1 (FpV adx)) ∧ s.Rep (n • P)) := verify_iff hH pk s hm

example (s : G2 (FpV adx)) : ∃ b, verify (Keys.publicKey [3, 0, 0, 0]) [97, 98, 99] s = some b := by
  obtain ⟨-, -, b, e, -⟩ := C46_spec sha_spec (Keys.publicKey [3, 0, 0, 0]) [97, 98, 99] s (by decide)
  exact ⟨b, e⟩

/-- C46: proofs of possession. -/
theorem C46_pop (pk : G1 (FpV adx)) (s : G2 (FpV adx)) : popVerify pk s = some true ↔
    pk.isOnCurve FpC.B = true ∧ s.isOnCurve Fp2.B = true ∧ ∃ sk, sk.length = 4 ∧ wordsVal sk < q ∧
      pk.equal (Keys.publicKey sk) = true ∧ ∃ s', popProve sk = some s' ∧ s.equal s' = true := popVerify_exact pk s

theorem C46_pop_unique (pk : G1 (FpV adx)) (s s' : G2 (FpV adx)) (h : popVerify pk s = some true)
    (h' : popVerify pk s' = some true) : s.equal s' = true := popVerify_unique h h'

/-- The key 3: exactly the result of `pop_prove` is accepted. -/
example (s' : G2 (FpV adx)) (h' : popVerify (Keys.publicKey [3, 0, 0, 0]) s' = some true) :
    ∃ s, popProve [3, 0, 0, 0] = some s ∧ s'.equal s = true := by
  obtain ⟨s, e, h⟩ := C45_pop (adx := adx) [3, 0, 0, 0]
  exact ⟨s, e, C46_pop_unique _ _ _ h' h⟩

/-- C46: `verify` and `pop_verify` answer `false` for keys and signatures that are off the curve or outside the subgroup. -/
theorem C46_reject (pk : G1 (FpV adx)) (m : List UInt8) (s : G2 (FpV adx)) (h : ¬ Member1 pk ∨ ¬ Member2 s) :
    (m.length < 2 ^ 31 → verify pk m s = some false) ∧ popVerify pk s = some false := by
  constructor
  · intro hm'
    rw [verify_eq, hm_eq hm', Option.bind_some]
    exact core_reject h
  · obtain ⟨a, e, -⟩ := fromMessage_rep (K := FpV adx) sha_spec (keyBytes pk) _ (keyBytes_short pk) id_length.2
    rw [popVerify_eq, e, Option.bind_some]
    exact core_reject h

/-- There are points on the curve outside the subgroup. -/
example : ∃ a : G1 (FpV adx), a.isOnCurve FpC.B = true ∧ ¬ Member1 a := by
  obtain ⟨a, h1, h2⟩ := Bls.out1' (K := FpV adx)
  exact ⟨a, h1, fun h => absurd h.2 (by rw [h2]; simp)⟩

/-- C46: so does `aggregate_verify`. -/
theorem C46_reject_aggregate (pks : List (G1 (FpV adx))) (ms : List (List UInt8)) (s : G2 (FpV adx)) (dup : Bool)
    (hm : ∀ m ∈ ms, m.length < 2 ^ 31) (h : (∃ pk ∈ pks, ¬ Member1 pk) ∨ ¬ Member2 s) :
    aggregateVerify pks ms s dup = some false := by
  rcases h with ⟨pk, hpk, hv⟩ | h
  swap
  · exact aggregateVerify_sig h
  by_cases hl : pks.length = ms.length
  swap
  · exact aggregateVerify_length pks ms s dup hl
  have e1 : (pks.zip ms).map Prod.fst = pks := List.map_fst_zip hl.le
  have e2 : (pks.zip ms).map Prod.snd = ms := List.map_snd_zip hl.ge
  obtain ⟨b, e, hb⟩ := aggregateVerify_eq (pks.zip ms) s dup (fun x hx => hm _ (List.of_mem_zip hx).2)
  rw [e1, e2] at e
  rw [e, Option.some_inj, ← Bool.not_eq_true, hb]
  rintro ⟨-, -, h3, -⟩
  rw [← e1] at hpk
  obtain ⟨x, hx, rfl⟩ := List.mem_map.1 hpk
  exact hv (h3 x hx)

/-- The key 3: exactly the result of `sign` is accepted. -/
example (s s' : G2 (FpV adx)) (h : sign [3, 0, 0, 0] [97] = some s) (h' : verify (Keys.publicKey [3, 0, 0, 0]) [97] s' = some true) :
    s'.equal s = true := C46_unique _ _ _ _ h' (C45_sign _ _ s h)

/-! ## C47 -/

/-- The negation of C47: infinity as a key, in any representation, is accepted together with infinity as a signature, for
every message. -/
theorem C47_false_verify (pk : G1 (FpV adx)) (m : List UInt8) (s : G2 (FpV adx)) (hm : m.length < 2 ^ 31)
    (h1 : pk.isZero = true) (h2 : s.isZero = true) : verify pk m s = some true := verify_zero hm h1 h2

example : verify (Jac.zero : G1 (FpV adx)) [97, 98, 99] Jac.zero = some true :=
  C47_false_verify _ _ _ (by decide) (Jac.isZero_iff.2 LawfulOps.zero_eq) (Jac.isZero_iff.2 LawfulOps.zero_eq)

theorem C47_false_pop (pk : G1 (FpV adx)) (s : G2 (FpV adx)) (h1 : pk.isZero = true) (h2 : s.isZero = true) :
    popVerify pk s = some true := popVerify_zero h1 h2

example : popVerify (Jac.zero : G1 (FpV adx)) Jac.zero = some true := C47_false_pop _ _ (Jac.isZero_iff.2 LawfulOps.zero_eq) (Jac.isZero_iff.2 LawfulOps.zero_eq)

/-- The negation of C47: in `aggregate_verify` infinity may be claimed to have signed any message. -/
theorem C47_false_aggregate (pk : G1 (FpV adx)) (m : List UInt8) (hm : m.length < 2 ^ 31) (h : pk.isZero = true)
    (l : List (G1 (FpV adx) × List UInt8)) (hl : ∀ x ∈ l, x.2.length < 2 ^ 31) (s : G2 (FpV adx)) (dup : Bool)
    (hd : dup = true → m ∉ l.map Prod.snd) :
    aggregateVerify (pk :: l.map Prod.fst) (m :: l.map Prod.snd) s dup =
      aggregateVerify (l.map Prod.fst) (l.map Prod.snd) s dup := aggregate_zero hm h l hl s dup hd

/-- Infinity is said to have signed `abc` besides an honest signer of `1`. -/
example : ∃ s : G2 (FpV adx), sign [3, 0, 0, 0] [1] = some s ∧
    aggregateVerify [Jac.zero, Keys.publicKey [3, 0, 0, 0]] [[97, 98, 99], [1]] (Keys.aggregate [s]) true = some true := by
  obtain ⟨s, e⟩ := C45_sign_defined (adx := adx) [3, 0, 0, 0] [1] (by decide)
  refine ⟨s, e, ?_⟩
  rw [← C45_aggregate [([3, 0, 0, 0], [1])] [s] true (by simp) (.cons e .nil) (by simp)]
  exact C47_false_aggregate Jac.zero [97, 98, 99] (by decide) (Jac.isZero_iff.2 LawfulOps.zero_eq) [(Keys.publicKey [3, 0, 0, 0], [1])] (by simp) _ true (by simp)

/-- `aggregate_verify` without keys accepts infinity and nothing else. -/
theorem C47_aggregate_empty (s : G2 (FpV adx)) (dup : Bool) :
    ∃ b, aggregateVerify [] [] s dup = some b ∧ (b = true ↔ s.isZero = true) := aggregate_nil s dup

/-- The negation of C47: two keys that are not infinity and cancel. -/
theorem C47_false_fast (pk : G1 (FpV adx)) (m : List UInt8) (s : G2 (FpV adx)) (hm : m.length < 2 ^ 31)
    (hpk : pk.isOnCurve FpC.B = true) (h2 : s.isZero = true) : popFastAggregateVerify [pk, pk.negate] m s = some true := by
  obtain ⟨P, hP⟩ := G1.onCurve_iff.1 hpk
  rw [fast_eq (K := FpV adx) (.cons hP (.cons (Jac.neg_rep hP) .nil)) (by simp) (k := Jac.zero) ?_]
  · exact verify_zero hm (Jac.isZero_iff.2 LawfulOps.zero_eq) h2
  · rw [List.sum_cons, List.sum_cons, List.sum_nil, add_zero, add_neg_cancel]
    exact Jac.zero_rep

example : popFastAggregateVerify [(Keys.publicKey [3, 0, 0, 0] : G1 (FpV adx)), (Keys.publicKey [3, 0, 0, 0]).negate] [97, 98, 99] Jac.zero =
    some true :=
  C47_false_fast _ _ _ (by decide) (publicKey_member _).1 (Jac.isZero_iff.2 LawfulOps.zero_eq)

/-- C47, in part: for infinity as a key no signature but infinity is accepted. Missing: the rejection of infinity, which is
false (`C47_false_verify`, `C47_false_pop`, `C47_false_aggregate`). -/
theorem C47_partial (pk : G1 (FpV adx)) (m : List UInt8) (s : G2 (FpV adx)) (h1 : pk.isZero = true)
    (h : verify pk m s = some true ∨ popVerify pk s = some true) : s.isZero = true := by
  rcases h with h | h
  · obtain ⟨a, P, n, _, _, o, _, k1, k2⟩ := (verify_true_iff pk m s).1 h
    exact accepted_zero o k1 k2 h1
  · obtain ⟨a, P, n, _, _, o, _, k1, k2⟩ := (popVerify_true_iff pk s).1 h
    exact accepted_zero o k1 k2 h1

/-- The generator is not accepted for infinity. -/
example : ¬ verify (Jac.zero : G1 (FpV adx)) [97, 98, 99] G2.one = some true := fun h => by
  have := C47_partial (Jac.zero : G1 (FpV adx)) _ _ (Jac.isZero_iff.2 LawfulOps.zero_eq) (.inl h)
  rw [G2.one_rep.isZero_iff] at this
  exact gen2_ne_zero _ this

/-- Conversely infinity is accepted as a signature for no other key, unless the message hashes to infinity. -/
theorem C47_converse (pk : G1 (FpV adx)) (m : List UInt8) (s h : G2 (FpV adx)) (hh : fromMessage m ciphersuiteId = some h)
    (h0 : h.isZero = false) (hv : verify pk m s = some true) (hs : s.isZero = true) : pk.isZero = true := by
  obtain ⟨a, P, n, e, r, o, _, k1, k2⟩ := (verify_true_iff pk m s).1 hv
  rw [hh] at e
  obtain rfl := Option.some.inj e
  refine accepted_zero' o ?_ k1 k2 hs
  rintro rfl
  rw [(r.isZero_iff).2 rfl] at h0
  exact absurd h0 (by simp)

/-- Infinity exists in every representation `(x, y, 0)`. -/
example (x y : FpV adx) : (⟨x, y, Ops.zero⟩ : G1 (FpV adx)).isZero = true := Jac.isZero_iff.2 LawfulOps.zero_eq

/-! ## C48 -/

/-- C48: lists of different lengths. -/
theorem C48_length (pks : List (G1 (FpV adx))) (ms : List (List UInt8)) (s : G2 (FpV adx)) (dup : Bool)
    (h : pks.length ≠ ms.length) : aggregateVerify pks ms s dup = some false := aggregateVerify_length pks ms s dup h

example (s : G2 (FpV adx)) : aggregateVerify [Keys.publicKey [3, 0, 0, 0]] [[97], [98]] s true = some false :=
  C48_length _ _ s true (by simp)

/-- C48: repeated messages. -/
theorem C48_duplicate (pks : List (G1 (FpV adx))) (ms : List (List UInt8)) (s : G2 (FpV adx)) (h : ¬ ms.Nodup) :
    aggregateVerify pks ms s true = some false := aggregateVerify_dup h

example (a b : G1 (FpV adx)) (s : G2 (FpV adx)) : aggregateVerify [a, b] [[97], [97]] s true = some false :=
  C48_duplicate _ _ s (by decide)

/-- C48: the decision. `hs` are the hashes of the messages, `vs` the pairings of the keys with them. -/
theorem C48_decision (pks : List (G1 (FpV adx))) (ms : List (List UInt8)) (s : G2 (FpV adx)) (dup : Bool)
    (hl : pks.length = ms.length) (hm : ∀ m ∈ ms, m.length < 2 ^ 31) :
    ∃ b, aggregateVerify pks ms s dup = some b ∧ (b = true ↔
      Member2 s ∧ (dup = true → ms.Nodup) ∧ (∀ pk ∈ pks, Member1 pk) ∧
      ∃ (hs : List (G2 (FpV adx))) (vs : List (Fp12 (FpV adx))),
        ms.map (fun m => fromMessage m ciphersuiteId) = hs.map some ∧
        List.zipWith (fun a h => pairing a h none ()) pks hs = vs.map some ∧ pairing G1.one s none () = some vs.prod) := by
  have e1 : (pks.zip ms).map Prod.fst = pks := List.map_fst_zip hl.le
  have e2 : (pks.zip ms).map Prod.snd = ms := List.map_snd_zip hl.ge
  obtain ⟨b, e, hb⟩ := aggregateVerify_pairing (pks.zip ms) s dup (fun x hx => hm _ (List.of_mem_zip hx).2)
    (fun a h => pairing a h none ()) fun _ _ => rfl
  rw [e1, e2] at e hb
  refine ⟨b, e, hb.trans (and_congr_right fun _ => and_congr_right fun _ => and_congr_left fun _ => ?_)⟩
  constructor
  · intro h pk hpk
    rw [← e1] at hpk
    obtain ⟨x, hx, rfl⟩ := List.mem_map.1 hpk
    exact h x hx
  · intro h x hx
    exact h x.1 (List.of_mem_zip hx).1

example (s : G2 (FpV adx)) : ∃ b, aggregateVerify [Keys.publicKey [3, 0, 0, 0], Keys.publicKey [5, 0, 0, 0]] [[97], [98]] s true = some b ∧
    (b = true → Member2 s) := by
  obtain ⟨b, e, h⟩ := C48_decision [Keys.publicKey [3, 0, 0, 0], Keys.publicKey [5, 0, 0, 0]] [[97], [98]] s true rfl (by simp)
  exact ⟨b, e, fun hb => (h.1 hb).1⟩

/-- C48: the order of the pairs does not matter. -/
theorem C48_perm (l l' : List (G1 (FpV adx) × List UInt8)) (hp : l.Perm l') (s : G2 (FpV adx)) (dup : Bool)
    (hm : ∀ x ∈ l, x.2.length < 2 ^ 31) :
    aggregateVerify (l.map Prod.fst) (l.map Prod.snd) s dup = aggregateVerify (l'.map Prod.fst) (l'.map Prod.snd) s dup :=
  aggregateVerify_perm hp s dup hm

/-- Two signers of different messages, in any order. -/
example (s s' : G2 (FpV adx)) (h : sign [3, 0, 0, 0] [97] = some s) (h' : sign [5, 0, 0, 0] [98] = some s') :
    aggregateVerify [Keys.publicKey [5, 0, 0, 0], Keys.publicKey [3, 0, 0, 0]] [[98], [97]] (Keys.aggregate [s, s']) true = some true := by
  have := C45_aggregate [([3, 0, 0, 0], [97]), ([5, 0, 0, 0], [98])] [s, s'] true (by simp) (.cons h (.cons h' .nil)) (by simp)
  rw [← this]
  exact C48_perm [(Keys.publicKey [5, 0, 0, 0], [98]), (Keys.publicKey [3, 0, 0, 0], [97])]
    [(Keys.publicKey [3, 0, 0, 0], [97]), (Keys.publicKey [5, 0, 0, 0], [98])] (.swap _ _ _) _ true (by simp)

/-! ## C49 -/

/-- C49: no keys. -/
theorem C49_empty (m : List UInt8) (s : G2 (FpV adx)) : popFastAggregateVerify [] m s = some false := rfl

/-- C49, in part: for keys on the curve the answer is that of `verify` for their sum, in any representation `k`. -/
theorem C49_sum_partial (pks : List (G1 (FpV adx))) (Ps : List (E1 (FpV adx))) (h : List.Forall₂ Jac.Rep pks Ps) (h0 : pks ≠ [])
    (k : G1 (FpV adx)) (hk : k.Rep Ps.sum) (m : List UInt8) (s : G2 (FpV adx)) :
    popFastAggregateVerify pks m s = verify k m s := fast_eq h h0 hk m s

/-- The keys 3 and 5 together are the key 8. -/
example (m : List UInt8) (s : G2 (FpV adx)) : popFastAggregateVerify [Keys.publicKey [3, 0, 0, 0], Keys.publicKey [5, 0, 0, 0]] m s =
    verify (Keys.publicKey [8, 0, 0, 0]) m s := by
  refine C49_sum_partial _ _ (.cons (Keys.publicKey_rep [3, 0, 0, 0]) (.cons (Keys.publicKey_rep [5, 0, 0, 0]) .nil)) (by simp) _ ?_ m s
  rw [List.sum_cons, List.sum_cons, List.sum_nil, add_zero, ← add_nsmul]
  exact Keys.publicKey_rep [8, 0, 0, 0]

/-- C49, in part: the order of keys on the curve does not matter. Missing: keys off the curve, for which it is false
(`C49_false`). -/
theorem C49_perm_partial (pks pks' : List (G1 (FpV adx))) (hp : pks.Perm pks') (h : ∀ a ∈ pks, a.isOnCurve FpC.B = true)
    (m : List UInt8) (s : G2 (FpV adx)) : popFastAggregateVerify pks m s = popFastAggregateVerify pks' m s :=
  fast_perm hp h m s

example (m : List UInt8) (s : G2 (FpV adx)) : popFastAggregateVerify [Keys.publicKey [3, 0, 0, 0], Keys.publicKey [5, 0, 0, 0]] m s =
    popFastAggregateVerify [Keys.publicKey [5, 0, 0, 0], Keys.publicKey [3, 0, 0, 0]] m s :=
  C49_perm_partial _ _ (.swap _ _ _) (fun a ha => by
    rcases List.mem_cons.1 ha with rfl | ha
    · exact (publicKey_member _).1
    · obtain rfl := List.mem_singleton.1 ha
      exact (publicKey_member _).1) m s

/-- The negation of C49: `pop_fast_aggregate_verify` does not check the keys, and there are four points off the curve that it
accepts in one order and rejects in another. -/
theorem C49_false : ∃ pks pks' : List (G1 (FpV adx)), pks.Perm pks' ∧ ∀ (m : List UInt8) (s : G2 (FpV adx)),
    m.length < 2 ^ 31 → s.isZero = true →
    popFastAggregateVerify pks m s = some true ∧ popFastAggregateVerify pks' m s = some false := fast_order (FpV adx)

end Bls.Props
