import Verif.Props.Tags
import Verif.Proof.Cfrg
import Verif.Props.Bilinear

/-!
# C87: the schemes of draft-irtf-cfrg-bls-signature
-/

namespace Bls.Props
open Bls Sig Rfc Cfrg Pairing

variable {adx : Bool} {H : List UInt8 → List UInt8}

attribute [local irreducible] p q hEff2

/-- C87, the full statement: each of the four decisions is the one of the draft. -/
def C87_full (adx : Bool) (H : List UInt8 → List UInt8) : Prop :=
  (∀ (pk : G1 (FpV adx)) (P : E1 (FpV adx)) (m : List UInt8) (s : G2 (FpV adx)) (S : E2 (FpV adx)), pk.Rep P → s.Rep S →
    m.length < 2 ^ 31 → (verify pk m s = some true ↔ CoreVerify H sigTag m P S)) ∧
  (∀ (pks : List (G1 (FpV adx))) (Ps : List (E1 (FpV adx))) (ms : List (List UInt8)) (s : G2 (FpV adx)) (S : E2 (FpV adx)),
    List.Forall₂ Jac.Rep pks Ps → s.Rep S → (∀ m ∈ ms, m.length < 2 ^ 31) → pks.length = ms.length →
    (aggregateVerify pks ms s true = some true ↔ AggregateVerify H (Ps.zip ms) S)) ∧
  (∀ (pk : G1 (FpV adx)) (P : E1 (FpV adx)) (s : G2 (FpV adx)) (S : E2 (FpV adx)), pk.Rep P → s.Rep S →
    (popVerify pk s = some true ↔ PopVerify H P S)) ∧
  (∀ (pks : List (G1 (FpV adx))) (Ps : List (E1 (FpV adx))) (m : List UInt8) (s : G2 (FpV adx)) (S : E2 (FpV adx)),
    List.Forall₂ Jac.Rep pks Ps → s.Rep S → m.length < 2 ^ 31 →
    (popFastAggregateVerify pks m s = some true ↔ FastAggregateVerify H Ps m S))

/-- C87: the specification is what the draft computes: the key is not infinity, key and signature are in the subgroups, and the
pairing of the key with the hash is that of the generator with the signature. -/
theorem C87_core_pairing {σ : Type} {tag m : List UInt8} {Q : E2 (FpV adx)} (hQ : IsHash H m tag Q) {a : G1 (FpV adx)} {P : E1 (FpV adx)}
    (hP : a.Rep P) {s h : G2 (FpV adx)} {S : E2 (FpV adx)} (hS : s.Rep S) (hh : h.Rep Q) (y : Option (σ → σ)) (st : σ) :
    CoreVerify H tag m P S ↔ P ≠ 0 ∧ q • P = 0 ∧ q • S = 0 ∧ pairing a h y st = pairing G1.one s y st := by
  have o := hash_order hQ
  have og := q_smul_gen1 (FpV adx)
  rw [pairing, pairing, calc_eps hP hh, calc_eps G1.one_rep hS, Option.some_inj]
  refine and_congr_right fun _ => ?_
  constructor
  · rintro ⟨n, T, hT, h1, h2⟩
    obtain rfl := hash_unique hQ hT
    have oS : q • (n • Q) = 0 := smul_smul_zero o n
    rw [h1, h2]
    exact ⟨smul_smul_zero og n, oS, by rw [eps_smul_left og o, eps_smul_right og o]⟩
  · rintro ⟨h1, h2, h3⟩
    obtain ⟨n, -, rfl⟩ := exists_lt_smul og (mem_gen1 _ h1)
    refine ⟨n, Q, hQ, rfl, ?_⟩
    refine eps_inj_right og (gen1_ne_zero _) h2 (smul_smul_zero o n) ?_
    rw [← h3, eps_smul_left og o, eps_smul_right og o]

/-- C87: `verify` accepts what the basic scheme accepts, and besides the signature infinity under the key infinity. -/
theorem C87_verify_partial (hH : ∀ m, Fips.IsSha256 m (H m)) {pk : G1 (FpV adx)} {P : E1 (FpV adx)} (hP : pk.Rep P)
    {s : G2 (FpV adx)} {S : E2 (FpV adx)} (hS : s.Rep S) {m : List UInt8} (hm : m.length < 2 ^ 31) :
    verify pk m s = some true ↔ CoreVerify H sigTag m P S ∨ P = 0 ∧ S = 0 := by
  rw [← tags_eq.1]
  exact verify_draft hH hP hS hm

open scoped Classical in
/-- C87: `aggregate_verify` leaves the keys that are infinity out, with their messages, and accepts what the draft accepts for the others;
when no key remains, also for no keys at all, it accepts infinity alone. With the flag set the messages must differ as in the basic
scheme, those of keys left out too. -/
theorem C87_aggregate_partial (hH : ∀ m, Fips.IsSha256 m (H m)) {pks : List (G1 (FpV adx))} {Ps : List (E1 (FpV adx))}
    (hr : List.Forall₂ Jac.Rep pks Ps) {s : G2 (FpV adx)} {S : E2 (FpV adx)} (hS : s.Rep S) (ms : List (List UInt8))
    (hm : ∀ m ∈ ms, m.length < 2 ^ 31) (dup : Bool) :
    aggregateVerify pks ms s dup = some true ↔ pks.length = ms.length ∧ (dup = true → ms.Nodup) ∧
      (CoreAggregateVerify H sigTag ((Ps.zip ms).filter fun x => x.1 ≠ 0) S ∨ (∀ P ∈ Ps, P = 0) ∧ S = 0) := by
  rw [← tags_eq.1]
  exact aggregate_draft hH hr hS ms hm dup

/-- C87: so for keys that are not infinity, at least one, `aggregate_verify` is the draft's. -/
theorem C87_aggregate_nonzero (hH : ∀ m, Fips.IsSha256 m (H m)) {pks : List (G1 (FpV adx))} {Ps : List (E1 (FpV adx))}
    (hr : List.Forall₂ Jac.Rep pks Ps) {s : G2 (FpV adx)} {S : E2 (FpV adx)} (hS : s.Rep S) (ms : List (List UInt8))
    (hm : ∀ m ∈ ms, m.length < 2 ^ 31) (hl : pks.length = ms.length) (h0 : pks ≠ []) (h : ∀ P ∈ Ps, P ≠ 0) :
    aggregateVerify pks ms s true = some true ↔ AggregateVerify H (Ps.zip ms) S := by
  classical
  have hlP : Ps.length = ms.length := hr.length_eq.symm.trans hl
  have hf : ((Ps.zip ms).filter fun x => x.1 ≠ 0) = Ps.zip ms := by
    rw [List.filter_eq_self]
    intro x hx
    simpa using h _ (List.of_mem_zip hx).1
  have hn : ¬ ∀ P ∈ Ps, P = 0 := by
    intro k
    cases hr with
    | nil => exact h0 rfl
    | cons a b => exact h _ (List.mem_cons_self ..) (k _ (List.mem_cons_self ..))
  have := C87_aggregate_partial hH hr hS ms hm true
  rw [this]
  have e : (Ps.zip ms).map Prod.snd = ms := List.map_snd_zip hlP.ge
  rw [AggregateVerify, e]
  have hf' : (List.filter (fun x : E1 (FpV adx) × List UInt8 => decide (x.1 ≠ 0)) (Ps.zip ms)) = Ps.zip ms := by
    convert hf
  constructor
  · rintro ⟨-, k, k' | k'⟩
    · exact ⟨k rfl, by rwa [hf'] at k'⟩
    · exact (hn k'.1).elim
  · rintro ⟨k, k'⟩
    exact ⟨hl, fun _ => k, Or.inl (by rwa [hf'])⟩

/-- C87: `pop_fast_aggregate_verify` is the draft's verification of the sum of the keys, at least one, except that it hashes the message
under the tag of the basic scheme and accepts infinity when the keys cancel. -/
theorem C87_fast_partial (hH : ∀ m, Fips.IsSha256 m (H m)) {pks : List (G1 (FpV adx))} {Ps : List (E1 (FpV adx))}
    (hr : List.Forall₂ Jac.Rep pks Ps) {s : G2 (FpV adx)} {S : E2 (FpV adx)} (hS : s.Rep S) {m : List UInt8} (hm : m.length < 2 ^ 31) :
    popFastAggregateVerify pks m s = some true ↔ Ps ≠ [] ∧ (CoreVerify H sigTag m Ps.sum S ∨ Ps.sum = 0 ∧ S = 0) := by
  rw [← tags_eq.1]
  exact fast_draft hH hr hS hm

/-- C87: so a signature is good for both, the library and the proof of possession scheme, only when the message has the same hash under
both tags. -/
theorem C87_fast_both (hH : ∀ m, Fips.IsSha256 m (H m)) {pks : List (G1 (FpV adx))} {Ps : List (E1 (FpV adx))}
    (hr : List.Forall₂ Jac.Rep pks Ps) {s : G2 (FpV adx)} {S : E2 (FpV adx)} (hS : s.Rep S) {m : List UInt8} (hm : m.length < 2 ^ 31)
    {Q Q' : E2 (FpV adx)} (hQ : IsHash H m sigTag Q) (hQ' : IsHash H m popSigTag Q') (hd : FastAggregateVerify H Ps m S) :
    popFastAggregateVerify pks m s = some true ↔ Q = Q' := by
  obtain ⟨h0, h1, n, T, hT, h2, h3⟩ := hd
  obtain rfl := hash_unique hQ' hT
  have o := hash_order hQ
  have o' := hash_order hQ'
  rw [C87_fast_partial hH hr hS hm]
  have hn : n % q ≠ 0 := fun h => h1 (by rw [h2, ← smul_mod (q_smul_gen1 _), h, zero_nsmul])
  constructor
  · rintro ⟨-, ⟨-, n', T, hT, g2, g3⟩ | ⟨g, -⟩⟩
    · obtain rfl := hash_unique hQ hT
      have e : n % q = n' % q := by
        rw [← Keys.smul_gen1_eq_iff (K := FpV adx), ← h2, g2]
      refine smul_cancel o o' (n := n) (fun h => hn (Nat.mod_eq_zero_of_dvd h)) ?_
      rw [← h3, g3, ← smul_mod o, e, smul_mod o]
    · exact (h1 g).elim
  · rintro rfl
    exact ⟨h0, Or.inl ⟨h1, n, Q, hQ, h2, h3⟩⟩

/-- C87: `pop_fast_aggregate_verify` is not the draft's: it rejects the signature of `abc` that the proof of possession scheme
prescribes for the secret key 1, and the draft rejects the one that `sign` returns. -/
theorem C87_fast_false (hH : ∀ m, Fips.IsSha256 m (H m)) :
    (∃ (s : G2 (FpV adx)) (S : E2 (FpV adx)), s.Rep S ∧ FastAggregateVerify H [gen1 (FpV adx)] [97, 98, 99] S ∧
      popFastAggregateVerify [Keys.publicKey [1, 0, 0, 0]] [97, 98, 99] s ≠ some true) ∧
    ∃ (s : G2 (FpV adx)) (S : E2 (FpV adx)), s.Rep S ∧ sign [1, 0, 0, 0] [97, 98, 99] = some s ∧
      popFastAggregateVerify [Keys.publicKey [1, 0, 0, 0]] [97, 98, 99] s = some true ∧
      ¬ FastAggregateVerify H [gen1 (FpV adx)] [97, 98, 99] S := by
  obtain ⟨Q, Q', hQ, hQ', hne⟩ := abc_tags (FpV adx) hH
  have hw : wordsVal [1, 0, 0, 0] = 1 := by decide
  have hk : (Keys.publicKey [1, 0, 0, 0] : G1 (FpV adx)).Rep (gen1 (FpV adx)) := by
    have := Keys.publicKey_rep (K := FpV adx) [1, 0, 0, 0]
    rwa [hw, one_smul] at this
  have hr : List.Forall₂ Jac.Rep [(Keys.publicKey [1, 0, 0, 0] : G1 (FpV adx))] [gen1 (FpV adx)] := .cons hk .nil
  have hl : ([97, 98, 99] : List UInt8).length < 2 ^ 31 := by decide
  have hd : FastAggregateVerify H [gen1 (FpV adx)] [97, 98, 99] Q' :=
    ⟨List.cons_ne_nil _ _, by rw [List.sum_singleton]; exact gen1_ne_zero _, 1, Q', hQ',
      by rw [List.sum_singleton, one_nsmul], (one_nsmul Q').symm⟩
  rw [tags_eq.1] at hQ
  constructor
  · obtain ⟨s, hs⟩ := Jac.exists_rep Q'
    refine ⟨s, Q', hs, hd, fun h => hne ?_⟩
    exact (C87_fast_both hH hr hs hl hQ hQ' hd).1 h
  · obtain ⟨P, hP, s, e, hs⟩ := sign_rep (K := FpV adx) hH [1, 0, 0, 0] hl
    rw [tags_eq.1] at hP
    obtain rfl := hash_unique hQ hP
    rw [hw, one_smul] at hs
    have hv : popFastAggregateVerify [Keys.publicKey [1, 0, 0, 0]] [97, 98, 99] s = some true := by
      refine (C87_fast_partial hH hr hs hl).2 ⟨List.cons_ne_nil _ _, Or.inl ⟨?_, 1, Q, hQ, ?_, (one_nsmul Q).symm⟩⟩
      · rw [List.sum_singleton]; exact gen1_ne_zero _
      · rw [List.sum_singleton, one_nsmul]
    refine ⟨s, Q, hs, e, hv, fun h => hne ?_⟩
    exact (C87_fast_both hH hr hs hl hQ hQ' h).1 hv

/-- C87: `pop_verify` is the draft's verification of the 96 bytes of the key under the tag of proofs of possession; besides it accepts
infinity for the key infinity. -/
theorem C87_pop_partial (hH : ∀ m, Fips.IsSha256 m (H m)) {pk : G1 (FpV adx)} {P : E1 (FpV adx)} (hP : pk.Rep P)
    {s : G2 (FpV adx)} {S : E2 (FpV adx)} (hS : s.Rep S) :
    popVerify pk s = some true ↔ (∃ bs, IsAffineLE P bs ∧ CoreVerify H popTag bs P S) ∨ P = 0 ∧ S = 0 := by
  rw [pop_draft hH hP hS, tags_eq.2]
  refine or_congr_left ⟨fun h => ⟨_, keyBytes_spec hP, h⟩, ?_⟩
  rintro ⟨bs, h1, h2⟩
  rwa [(C53_key_bytes P P _ (keyBytes_spec hP)).1 bs h1] at h2

/-- C87: `pop_verify` is not the draft's either: it rejects the proof that the draft prescribes for the secret key 1. -/
theorem C87_pop_false (hH : ∀ m, Fips.IsSha256 m (H m)) : ∃ (s : G2 (FpV adx)) (S : E2 (FpV adx)), s.Rep S ∧
    PopVerify H (gen1 (FpV adx)) S ∧ popVerify (Keys.publicKey [1, 0, 0, 0]) s = some false := by
  obtain ⟨bs, P, s, h1, h2, h3, h4, -⟩ := C53_not_standard (adx := adx) hH
  exact ⟨s, P, h3, ⟨bs, h1, gen1_ne_zero _, 1, P, h2, (one_nsmul _).symm, (one_nsmul _).symm⟩, h4⟩

/-- C87: the full statement is false. -/
theorem C87_false (hH : ∀ m, Fips.IsSha256 m (H m)) : ¬ C87_full adx H := by
  rintro ⟨h, -⟩
  have := (h Jac.zero 0 [] Jac.zero 0 Jac.zero_rep Jac.zero_rep (by decide)).1
    ((C87_verify_partial hH Jac.zero_rep Jac.zero_rep (m := []) (by decide)).2 (Or.inr ⟨rfl, rfl⟩))
  exact this.1 rfl

example : ∃ H : List UInt8 → List UInt8, ∀ m, Fips.IsSha256 m (H m) := ⟨_, sha_spec⟩

/-- The draft's schemes accept something: the generator, a key that is not infinity, and its signature. -/
theorem draft_case (hH : ∀ m, Fips.IsSha256 m (H m)) : ∃ Q : E2 (FpV adx), CoreVerify H sigTag [97, 98, 99] (gen1 (FpV adx)) Q ∧
    AggregateVerify H ([gen1 (FpV adx)].zip [[97, 98, 99]]) Q := by
  obtain ⟨Q, -, hQ, -⟩ := abc_tags (FpV adx) hH
  rw [tags_eq.1] at hQ
  have h : CoreVerify H sigTag [97, 98, 99] (gen1 (FpV adx)) Q :=
    ⟨gen1_ne_zero _, 1, Q, hQ, (one_nsmul _).symm, (one_nsmul _).symm⟩
  exact ⟨Q, h, by simp, by simp, [Q], .cons h .nil, by rw [List.sum_singleton]⟩

/-- The key of the secret key 1 is the generator. -/
theorem key_one : (Keys.publicKey [1, 0, 0, 0] : G1 (FpV adx)).Rep (gen1 (FpV adx)) := by
  have := Keys.publicKey_rep (K := FpV adx) [1, 0, 0, 0]
  rwa [show wordsVal [1, 0, 0, 0] = 1 from by decide, one_smul] at this

/-- The signature of `abc` under the secret key 1 is accepted by the library alone, beside the key infinity, and in aggregate; its pairing
is the one of the hash. -/
example : ∃ (s h : G2 (FpV adx)), verify (Keys.publicKey [1, 0, 0, 0]) [97, 98, 99] s = some true ∧
    aggregateVerify [Keys.publicKey [1, 0, 0, 0], Jac.zero] [[97, 98, 99], [1]] s true = some true ∧
    aggregateVerify [Keys.publicKey [1, 0, 0, 0]] [[97, 98, 99]] s true = some true ∧
    popFastAggregateVerify [Keys.publicKey [1, 0, 0, 0]] [97, 98, 99] s = some true ∧
    pairing (Keys.publicKey [1, 0, 0, 0]) h none () = pairing G1.one s none () := by
  obtain ⟨Q, h1, h2⟩ := draft_case (adx := adx) sha_spec
  obtain ⟨s, hs⟩ := Jac.exists_rep Q
  have hg := gen1_ne_zero (FpV adx)
  obtain ⟨-, n, T, hT, -⟩ := id h1
  obtain ⟨h, hh⟩ := Jac.exists_rep T
  refine ⟨s, h, (C87_verify_partial sha_spec key_one hs (by decide)).2 (.inl h1), ?_, ?_, ?_,
    ((C87_core_pairing hT key_one hs hh none ()).1 h1).2.2.2⟩
  · refine (C87_aggregate_partial sha_spec (.cons key_one (.cons Jac.zero_rep .nil)) hs _ (by decide) true).2
      ⟨rfl, fun _ => by decide, .inl ?_⟩
    have e : (([gen1 (FpV adx), 0].zip [[97, 98, 99], [1]]).filter fun x : E1 (FpV adx) × List UInt8 => x.1 ≠ 0) =
        [gen1 (FpV adx)].zip [[97, 98, 99]] := by
      simp [hg]
    rw [e]
    exact h2.2
  · exact (C87_aggregate_nonzero sha_spec (.cons key_one .nil) hs _ (by decide) rfl (by simp) (by simpa using hg)).2 h2
  · refine (C87_fast_partial sha_spec (.cons key_one .nil) hs (by decide)).2 ⟨by simp, .inl ?_⟩
    rwa [List.sum_singleton]

/-- The signature of the draft's scheme of proofs of possession for `abc` and the secret key 1 is not accepted. -/
example : ∃ (s : G2 (FpV adx)), popFastAggregateVerify [Keys.publicKey [1, 0, 0, 0]] [97, 98, 99] s ≠ some true := by
  obtain ⟨Q, Q', hQ, hQ', hne⟩ := abc_tags (FpV adx) sha_spec
  rw [tags_eq.1] at hQ
  obtain ⟨s, hs⟩ := Jac.exists_rep Q'
  have hd : FastAggregateVerify _ [gen1 (FpV adx)] [97, 98, 99] Q' :=
    ⟨List.cons_ne_nil _ _, by rw [List.sum_singleton]; exact gen1_ne_zero _, 1, Q', hQ',
      by rw [List.sum_singleton, one_nsmul], (one_nsmul Q').symm⟩
  exact ⟨s, fun h => hne ((C87_fast_both sha_spec (.cons key_one .nil) hs (by decide) hQ hQ' hd).1 h)⟩

/-- `C87_fast_false` and `C87_pop_false` for the model's SHA-256. -/
example : (∃ (s : G2 (FpV adx)) (S : E2 (FpV adx)), s.Rep S ∧
      FastAggregateVerify (fun m => Sha256.hash [m]) [gen1 (FpV adx)] [97, 98, 99] S ∧
      popFastAggregateVerify [Keys.publicKey [1, 0, 0, 0]] [97, 98, 99] s ≠ some true) ∧
    ∃ (s : G2 (FpV adx)) (S : E2 (FpV adx)), s.Rep S ∧ PopVerify (fun m => Sha256.hash [m]) (gen1 (FpV adx)) S ∧
      popVerify (Keys.publicKey [1, 0, 0, 0]) s = some false :=
  ⟨(C87_fast_false sha_spec).1, C87_pop_false sha_spec⟩

/-- The proof of possession of the secret key 1. -/
example : ∃ (S : E2 (FpV adx)) (bs : List UInt8), IsAffineLE (gen1 (FpV adx)) bs ∧
    CoreVerify (fun m => Sha256.hash [m]) popTag bs (gen1 (FpV adx)) S := by
  obtain ⟨s, -, h⟩ := C45_pop (adx := adx) [1, 0, 0, 0]
  obtain ⟨S, hS⟩ := G2.onCurve_iff.1 ((C46_pop _ _).1 h).2.1
  rcases (C87_pop_partial sha_spec key_one hS).1 h with ⟨bs, h1, h2⟩ | ⟨h0, -⟩
  · exact ⟨S, bs, h1, h2⟩
  · exact absurd h0 (gen1_ne_zero _)

example : popSigTag = "BLS_SIG_BLS12381G2_XMD:SHA-256_SSWU_RO_POP_".toUTF8.toList ∧ popSigTag ≠ sigTag ∧ popSigTag ≠ popTag := by
  decide +kernel

end Bls.Props
