import Verif.Proof.Signatures2

/-! What an accepted signature determines, and how the verification functions fit together. -/

namespace Bls.Sig
open Bls Rfc Pairing

variable {K : Type} [Field K] [FpOps K] [LawfulFp K] [DecidableEq K]

attribute [local irreducible] p q hEff2 eps pairVal

/-- Multiples of a point of prime order determine the factor. -/
theorem smul_inj_mod {P : E2 K} (o : q • P = 0) (hP : P ≠ 0) {m n : ℕ} : m • P = n • P ↔ m % q = n % q := by
  have hd : addOrderOf P = q := (Nat.dvd_prime q_prime).1 (addOrderOf_dvd_of_nsmul_eq_zero o) |>.resolve_left
    fun h => hP (AddMonoid.addOrderOf_eq_one_iff.1 h)
  have h := nsmul_inj_mod (x := P) (n := m) (m := n)
  rwa [hd] at h

/-- A nonzero multiple below `q` determines the point. -/
theorem smul_cancel {P Q : E2 K} (oP : q • P = 0) (oQ : q • Q = 0) {n : ℕ} (hn : ¬ q ∣ n) (h : n • P = n • Q) : P = Q := by
  have h1 : n • (P - Q) = 0 := by rw [nsmul_sub, h, sub_self]
  have h2 : q • (P - Q) = 0 := by rw [nsmul_sub, oP, oQ, sub_self]
  by_contra hne
  have hd : addOrderOf (P - Q) = q := (Nat.dvd_prime q_prime).1 (addOrderOf_dvd_of_nsmul_eq_zero h2) |>.resolve_left
    fun h => hne (sub_eq_zero.1 (AddMonoid.addOrderOf_eq_one_iff.1 h))
  exact hn (by rw [← hd]; exact addOrderOf_dvd_of_nsmul_eq_zero h1)

theorem sign_zero_iff {sk : List UInt64} {m : List UInt8} {e s : G2 K} (he : fromMessage m ciphersuiteId = some e)
    (h : sign sk m = some s) : s.isZero = true ↔ q ∣ wordsVal sk ∨ e.isZero = true := by
  obtain ⟨P, r, o⟩ := fromMessage_some id_length.1 he
  rw [sign, he, Option.map_some] at h
  obtain rfl := Option.some.inj h
  rw [(Jac.scale_rep (goodCurve2 K) r sk).isZero_iff, r.isZero_iff]
  constructor
  · intro h0
    by_cases hP : P = 0
    · exact .inr hP
    · left
      have := (smul_inj_mod o hP (m := wordsVal sk) (n := 0)).1 (by rw [h0, zero_nsmul])
      rw [Nat.zero_mod] at this
      exact Nat.dvd_of_mod_eq_zero this
  · rintro (⟨k, hk⟩ | rfl)
    · rw [hk, Nat.mul_comm, mul_nsmul', o, nsmul_zero]
    · exact nsmul_zero _

theorem bind_message {pk : G1 K} {m m' : List UInt8} {s : G2 K} (h : verify pk m s = some true)
    (h' : verify pk m' s = some true) (h0 : pk.isZero = false) :
    ∃ e e' : G2 K, fromMessage m ciphersuiteId = some e ∧ fromMessage m' ciphersuiteId = some e' ∧ e.equal e' = true := by
  obtain ⟨a, P, n, e, r, o, hn, h1, h2⟩ := (verify_true_iff _ _ _).1 h
  obtain ⟨a', P', n', e', r', o', hn', h1', h2'⟩ := (verify_true_iff _ _ _).1 h'
  have e1 := h1.unique h1'
  rw [Keys.smul_gen1_eq_iff, Nat.mod_eq_of_lt hn, Nat.mod_eq_of_lt hn'] at e1
  subst e1
  refine ⟨a, a', e, e', (Jac.equal_iff r r').2 (smul_cancel o o' (n := n) (fun hd => ?_) (h2.unique h2'))⟩
  rw [h1.isZero_iff.2 ((Keys.smul_gen1_eq_zero_iff n).2 hd)] at h0
  exact absurd h0 (by simp)

theorem bind_key {pk pk' : G1 K} {m : List UInt8} {s e : G2 K} (h : verify pk m s = some true)
    (h' : verify pk' m s = some true) (he : fromMessage m ciphersuiteId = some e) (h0 : e.isZero = false) :
    pk.equal pk' = true := by
  obtain ⟨a, P, n, e1, r, o, hn, h1, h2⟩ := (verify_true_iff _ _ _).1 h
  obtain ⟨a', P', n', e1', r', o', hn', h1', h2'⟩ := (verify_true_iff _ _ _).1 h'
  rw [he] at e1 e1'
  obtain rfl := Option.some.inj e1
  obtain rfl := Option.some.inj e1'
  obtain rfl := r.unique r'
  rw [Jac.equal_iff h1 h1', Keys.smul_gen1_eq_iff]
  refine (smul_inj_mod o (fun hP => ?_)).1 (h2.unique h2')
  rw [r.isZero_iff.2 hP] at h0
  exact absurd h0 (by simp)

/-- The opposite of an accepted signature is not accepted. -/
theorem negate_rejected {pk : G1 K} {m : List UInt8} {s : G2 K} (h : verify pk m s = some true) (h0 : s.isZero = false) :
    verify pk m s.negate = some false := by
  obtain ⟨a, P, n, e, r, o, hn, h1, h2⟩ := (verify_true_iff _ _ _).1 h
  obtain ⟨b, e1, hb⟩ := core_iff pk s.negate r o
  rw [verify_eq, e, Option.bind_some, e1, Option.some_inj, Bool.eq_false_iff]
  intro hbt
  have hv : verify pk m s.negate = some true := by rw [verify_eq, e, Option.bind_some, e1, hbt]
  have he := (Jac.equal_iff h2 (Jac.neg_rep h2)).1 (verify_unique h hv)
  have h3 : 2 • (n • P) = 0 := by rw [two_nsmul]; exact add_eq_zero_iff_eq_neg.2 he
  have hd : addOrderOf (n • P) ∣ 2 := addOrderOf_dvd_of_nsmul_eq_zero h3
  have hq : addOrderOf (n • P) ∣ q := addOrderOf_dvd_of_nsmul_eq_zero (smul_smul_zero o n)
  have h1' : addOrderOf (n • P) = 1 := by
    rcases (Nat.dvd_prime q_prime).1 hq with h | h
    · exact h
    · rw [h] at hd; exact absurd (Nat.le_of_dvd (by norm_num) hd) (by rw [not_le]; decide +kernel)
  rw [h2.isZero_iff.2 (AddMonoid.addOrderOf_eq_one_iff.1 h1')] at h0
  exact absurd h0 (by simp)

theorem negate_both {pk : G1 K} (m : List UInt8) {s : G2 K} (hpk : pk.isOnCurve FpC.B = true) (hs : s.isOnCurve Fp2.B = true) :
    verify pk.negate m s.negate = verify pk m s := by
  obtain ⟨A, rA⟩ := G1.onCurve_iff.1 hpk
  obtain ⟨S, rS⟩ := G2.onCurve_iff.1 hs
  rw [verify_eq, verify_eq]
  refine bind_congr_some fun a e => ?_
  obtain ⟨P, r, o⟩ := fromMessage_some id_length.1 e
  have key : ∀ {pk : G1 K} {s : G2 K} {A : E1 K} {S : E2 K}, pk.Rep A → s.Rep S → core pk a s = some true →
      core pk.negate a s.negate = some true := by
    intro pk s A S rA rS h
    obtain ⟨n, hn, h1, h2⟩ := (some_true_iff (core_iff pk s r o)).1 h
    rw [some_true_iff (core_iff _ _ r o)]
    refine ⟨(q - n) % q, Nat.mod_lt _ q_prime.pos, ?_, ?_⟩
    · rw [smul_mod (q_smul_gen1 K)]
      have e : (q - n) • gen1 K = -(n • gen1 K) := by
        rw [eq_neg_iff_add_eq_zero, ← add_nsmul, Nat.sub_add_cancel hn.le, q_smul_gen1]
      rw [e]; exact Jac.neg_rep h1
    · rw [smul_mod o]
      have e : (q - n) • P = -(n • P) := by
        rw [eq_neg_iff_add_eq_zero, ← add_nsmul, Nat.sub_add_cancel hn.le, o]
      rw [e]; exact Jac.neg_rep h2
  obtain ⟨b, e1, -⟩ := core_iff pk s r o
  obtain ⟨b', e2, -⟩ := core_iff pk.negate s.negate r o
  have h1 := key rA rS
  have h2 := key (Jac.neg_rep rA) (Jac.neg_rep rS)
  rw [core_congr (Jac.neg_rep (Jac.neg_rep rA)) (by rw [neg_neg]; exact rA) (Jac.neg_rep (Jac.neg_rep rS))
    (by rw [neg_neg]; exact rS) r o] at h2
  rw [e1, e2] at h1 h2 ⊢
  simp only [Option.some_inj] at h1 h2 ⊢
  rw [Bool.eq_iff_iff]
  exact ⟨h2, h1⟩

/-! The verification functions. -/

theorem contrib_eq {pk : G1 K} {m : List UInt8} (hl : m.length < 2 ^ 31) {n : ℕ} (hn : pk.Rep (n • gen1 K)) :
    contrib (pk, m) = n • hpt m := by
  have hv : pk.isOnCurve FpC.B = true ∧ pk.inCorrectSubgroup = true :=
    member1.2 ⟨n % q, Nat.mod_lt _ q_prime.pos, by rw [smul_mod (q_smul_gen1 _)]; exact hn⟩
  have e := (scal_spec hv).unique hn
  rw [Keys.smul_gen1_eq_iff] at e
  have o := (hpt_spec (K := K) hl).2
  rw [contrib, ← smul_mod o, e, smul_mod o]

theorem contrib_order (pk : G1 K) {m : List UInt8} (hl : m.length < 2 ^ 31) : q • contrib (pk, m) = 0 :=
  smul_smul_zero (hpt_spec (K := K) hl).2 _

theorem verify_choice (pk : G1 K) {m : List UInt8} (s : G2 K) (hl : m.length < 2 ^ 31) :
    ∃ b, verify pk m s = some b ∧ (b = true ↔
      (pk.isOnCurve FpC.B = true ∧ pk.inCorrectSubgroup = true) ∧ s.Rep (contrib (pk, m))) := by
  obtain ⟨r, o⟩ := hpt_spec (K := K) hl
  obtain ⟨b, e, hb⟩ := core_iff pk s r o
  refine ⟨b, by rw [verify_eq, hm_eq hl, Option.bind_some, e], hb.trans ?_⟩
  constructor
  · rintro ⟨n, hn, h1, h2⟩
    exact ⟨member1.2 ⟨n, hn, h1⟩, by rw [contrib_eq hl h1]; exact h2⟩
  · rintro ⟨h1, h2⟩
    obtain ⟨n, hn, h3⟩ := member1.1 h1
    exact ⟨n, hn, h3, by rw [← contrib_eq hl h3]; exact h2⟩

theorem aggregate_single (pk : G1 K) {m : List UInt8} (s : G2 K) (dup : Bool) (hl : m.length < 2 ^ 31) :
    aggregateVerify [pk] [m] s dup = verify pk m s := by
  have hc := aggregateVerify_choice [(pk, m)] s dup (fun x hx => by rw [List.mem_singleton.1 hx]; exact hl)
  rw [List.map_singleton, List.map_singleton, List.map_singleton, List.sum_singleton] at hc
  refine eq_of_iff hc ?_
  obtain ⟨b, e, hb⟩ := verify_choice pk s hl
  refine ⟨b, e, hb.trans ?_⟩
  constructor
  · rintro ⟨h1, h2⟩
    exact ⟨fun _ => List.nodup_singleton _, fun x hx => by rw [List.mem_singleton.1 hx]; exact h1, h2⟩
  · rintro ⟨-, h1, h2⟩
    exact ⟨h1 (pk, m) (List.mem_singleton.2 rfl), h2⟩

theorem contrib_sum {m : List UInt8} (hl : m.length < 2 ^ 31) : ∀ {pks : List (G1 K)},
    (∀ pk ∈ pks, pk.isOnCurve FpC.B = true ∧ pk.inCorrectSubgroup = true) → ∃ Ps : List (E1 K), ∃ n : ℕ,
    List.Forall₂ Jac.Rep pks Ps ∧ Ps.sum = n • gen1 K ∧ (pks.map fun pk => contrib (pk, m)).sum = n • hpt m
  | [], _ => ⟨[], 0, .nil, by rw [List.sum_nil, zero_nsmul], by rw [List.map_nil, List.sum_nil, zero_nsmul]⟩
  | pk :: pks, h => by
    obtain ⟨k, -, hk⟩ := member1.1 (h pk (by simp))
    obtain ⟨Ps, n, h1, h2, h3⟩ := contrib_sum hl (pks := pks) fun x hx => h x (by simp [hx])
    refine ⟨k • gen1 K :: Ps, k + n, .cons hk h1, ?_, ?_⟩
    · rw [List.sum_cons, h2, add_nsmul]
    · rw [List.map_cons, List.sum_cons, h3, contrib_eq hl hk, add_nsmul]

theorem aggregate_common {pks : List (G1 K)} {m : List UInt8} (s : G2 K) (hl : m.length < 2 ^ 31) (h0 : pks ≠ [])
    (h : ∀ pk ∈ pks, pk.isOnCurve FpC.B = true ∧ pk.inCorrectSubgroup = true) :
    aggregateVerify pks (List.replicate pks.length m) s false = popFastAggregateVerify pks m s := by
  obtain ⟨Ps, n, h1, h2, h3⟩ := contrib_sum hl h
  have hk := Keys.aggregate_rep (goodCurve1 K) h1
  rw [fast_eq h1 h0 hk]
  have e1 : (pks.map fun pk => (pk, m)).map Prod.fst = pks := by rw [List.map_map]; exact List.map_id pks
  have e2 : (pks.map fun pk => (pk, m)).map Prod.snd = List.replicate pks.length m := by
    rw [List.map_map]; exact List.map_const' ..
  have hc := aggregateVerify_choice (pks.map fun pk => (pk, m)) s false (by
    intro x hx
    obtain ⟨pk, -, rfl⟩ := List.mem_map.1 hx
    exact hl)
  rw [e1, e2] at hc
  refine eq_of_iff hc ?_
  obtain ⟨b, e, hb⟩ := verify_choice (Keys.aggregate pks) s hl
  refine ⟨b, e, hb.trans ?_⟩
  rw [h2] at hk
  rw [contrib_eq hl hk, List.map_map, ← h3]
  constructor
  · rintro ⟨-, h5⟩
    refine ⟨fun h => absurd h (by simp), fun x hx => ?_, h5⟩
    obtain ⟨pk, hpk, rfl⟩ := List.mem_map.1 hx
    exact h pk hpk
  · rintro ⟨-, -, h5⟩
    exact ⟨member1.2 ⟨n % q, Nat.mod_lt _ q_prime.pos, by rw [smul_mod (q_smul_gen1 _)]; exact hk⟩, h5⟩

/-- Given one accepted part, the other is accepted exactly if the whole is. -/
theorem aggregate_append (l l' : List (G1 K × List UInt8)) (s s' : G2 K) (h : ∀ x ∈ l, x.2.length < 2 ^ 31)
    (h' : ∀ x ∈ l', x.2.length < 2 ^ 31) (hs' : s'.isOnCurve Fp2.B = true)
    (ha : aggregateVerify (l.map Prod.fst) (l.map Prod.snd) s false = some true) :
    aggregateVerify ((l ++ l').map Prod.fst) ((l ++ l').map Prod.snd) (s.add s') false =
      aggregateVerify (l'.map Prod.fst) (l'.map Prod.snd) s' false := by
  obtain ⟨-, a2, a3⟩ := (some_true_iff (aggregateVerify_choice l s false h)).1 ha
  refine eq_of_iff (aggregateVerify_choice (l ++ l') (s.add s') false fun x hx =>
    (List.mem_append.1 hx).elim (h x) (h' x)) ?_
  obtain ⟨b, e, hb⟩ := aggregateVerify_choice l' s' false h'
  refine ⟨b, e, hb.trans ?_⟩
  obtain ⟨S', rS'⟩ := G2.onCurve_iff.1 hs'
  have hadd := Jac.add_rep (goodCurve2 K) a3 rS'
  rw [List.map_append, List.map_append, List.sum_append]
  constructor
  · rintro ⟨-, h2, h3⟩
    refine ⟨fun h => absurd h (by simp), fun x hx => (List.mem_append.1 hx).elim (a2 x) (h2 x), ?_⟩
    rw [← rS'.unique h3]; exact hadd
  · rintro ⟨-, h2, h3⟩
    refine ⟨fun h => absurd h (by simp), fun x hx => h2 x (List.mem_append_right _ hx), ?_⟩
    rw [← add_left_cancel (hadd.unique h3)]; exact rS'

/-- Signatures accepted one by one are accepted together. -/
theorem aggregate_all (l : List ((G1 K × List UInt8) × G2 K)) (dup : Bool) (h : ∀ x ∈ l, x.1.2.length < 2 ^ 31)
    (hv : ∀ x ∈ l, verify x.1.1 x.1.2 x.2 = some true) (hd : dup = true → (l.map fun x => x.1.2).Nodup) :
    aggregateVerify (l.map fun x => x.1.1) (l.map fun x => x.1.2) (Keys.aggregate (l.map Prod.snd)) dup = some true := by
  have e1 : (l.map fun x => x.1.1) = (l.map Prod.fst).map Prod.fst := by rw [List.map_map]; rfl
  have e2 : (l.map fun x => x.1.2) = (l.map Prod.fst).map Prod.snd := by rw [List.map_map]; rfl
  have hv' : ∀ x ∈ l, (x.1.1.isOnCurve FpC.B = true ∧ x.1.1.inCorrectSubgroup = true) ∧ x.2.Rep (contrib x.1) := by
    intro x hx
    have := (some_true_iff (verify_choice x.1.1 x.2 (h x hx))).1 (hv x hx)
    rwa [Prod.mk.eta] at this
  rw [e1, e2, some_true_iff (aggregateVerify_choice _ _ dup ?_)]
  · refine ⟨fun k => by rw [← e2]; exact hd k, ?_, ?_⟩
    · intro x hx
      obtain ⟨y, hy, rfl⟩ := List.mem_map.1 hx
      exact (hv' y hy).1
    · refine Keys.aggregate_rep (goodCurve2 K) ?_
      rw [List.forall₂_map_left_iff, List.forall₂_map_right_iff, List.forall₂_map_right_iff, List.forall₂_same]
      exact fun x hx => (hv' x hx).2
  · intro x hx
    obtain ⟨y, hy, rfl⟩ := List.mem_map.1 hx
    exact h y hy

/-- An aggregate of shifted signatures. -/
theorem aggregate_shift {pk pk' : G1 K} {m m' : List UInt8} {s s' t : G2 K} (dup : Bool) (hl : m.length < 2 ^ 31)
    (hl' : m'.length < 2 ^ 31) (h : verify pk m s = some true) (h' : verify pk' m' s' = some true)
    (hd : dup = true → m ≠ m') (ht : t.isOnCurve Fp2.B = true) :
    aggregateVerify [pk, pk'] [m, m'] (Keys.aggregate [s.add t, s'.subtract t]) dup = some true ∧
      (t.isZero = false → verify pk m (s.add t) = some false ∧ verify pk' m' (s'.subtract t) = some false) := by
  obtain ⟨v1, r1⟩ := (some_true_iff (verify_choice pk s hl)).1 h
  obtain ⟨v2, r2⟩ := (some_true_iff (verify_choice pk' s' hl')).1 h'
  obtain ⟨T, rT⟩ := G2.onCurve_iff.1 ht
  have ra := Jac.add_rep (goodCurve2 K) r1 rT
  have rs := Jac.sub_rep (goodCurve2 K) r2 rT
  constructor
  · rw [show [pk, pk'] = [(pk, m), (pk', m')].map Prod.fst from rfl, show [m, m'] = [(pk, m), (pk', m')].map Prod.snd from rfl,
      some_true_iff (aggregateVerify_choice _ _ dup ?_)]
    · refine ⟨fun k => by simpa using hd k, ?_, ?_⟩
      · intro x hx
        rcases List.mem_cons.1 hx with rfl | hx
        · exact v1
        · rw [List.mem_singleton.1 hx]; exact v2
      · have hk := Keys.aggregate_rep (goodCurve2 K) (.cons ra (.cons rs .nil))
        rw [List.sum_cons, List.sum_cons, List.sum_nil] at hk
        rw [List.map_cons, List.map_cons, List.map_nil, List.sum_cons, List.sum_cons, List.sum_nil]
        have e : contrib (pk, m) + T + (contrib (pk', m') - T + 0) = contrib (pk, m) + (contrib (pk', m') + 0) := by
          abel
        rw [← e]
        exact hk
    · intro x hx
      rcases List.mem_cons.1 hx with rfl | hx
      · exact hl
      · rw [List.mem_singleton.1 hx]; exact hl'
  · intro h0
    have hT : T ≠ 0 := fun e => by rw [rT.isZero_iff.2 e] at h0; exact absurd h0 (by simp)
    obtain ⟨b, e, hb⟩ := verify_choice pk (s.add t) hl
    obtain ⟨b', e', hb'⟩ := verify_choice pk' (s'.subtract t) hl'
    refine ⟨?_, ?_⟩
    · rw [e, Option.some_inj, Bool.eq_false_iff, ne_eq, hb]
      rintro ⟨-, h3⟩
      exact hT (add_eq_left.1 (ra.unique h3))
    · rw [e', Option.some_inj, Bool.eq_false_iff, ne_eq, hb']
      rintro ⟨-, h3⟩
      exact hT (sub_eq_self.1 (rs.unique h3))

/-- Signatures are additive in the key. -/
theorem sign_add {a b c : List UInt64} (hc : wordsVal c % q = (wordsVal a + wordsVal b) % q) {m : List UInt8} {s s' s'' : G2 K}
    (h : sign a m = some s) (h' : sign b m = some s') (h'' : sign c m = some s'') : (s.add s').equal s'' = true := by
  cases e : (fromMessage m ciphersuiteId : Option (G2 K)) with
  | none => rw [sign, e] at h; exact absurd h (by simp)
  | some x =>
    obtain ⟨P, r, o⟩ := fromMessage_some id_length.1 e
    rw [sign, e, Option.map_some] at h h' h''
    obtain rfl := Option.some.inj h
    obtain rfl := Option.some.inj h'
    obtain rfl := Option.some.inj h''
    rw [Jac.equal_iff (Jac.add_rep (goodCurve2 K) (Jac.scale_rep (goodCurve2 K) r a) (Jac.scale_rep (goodCurve2 K) r b))
      (Jac.scale_rep (goodCurve2 K) r c), ← add_nsmul, ← smul_mod o, ← hc, smul_mod o]

/-- Rogue keys: whoever sees a key `pk` can publish `x G - pk` and sign alone for both. -/
theorem rogue {pk : G1 K} (hpk : pk.isOnCurve FpC.B = true ∧ pk.inCorrectSubgroup = true) (x : List UInt64) {m : List UInt8}
    {s : G2 K} (hs : sign x m = some s) :
    let rogue : G1 K := (Keys.publicKey x : G1 K).subtract pk
    (rogue.isOnCurve FpC.B = true ∧ rogue.inCorrectSubgroup = true) ∧
      popFastAggregateVerify [pk, rogue] m s = some true := by
  dsimp only
  set rogue : G1 K := (Keys.publicKey x : G1 K).subtract pk with hrdef
  obtain ⟨n, hn, h⟩ := member1.1 hpk
  have hx := Keys.publicKey_rep (K := K) x
  have hr : rogue.Rep (wordsVal x • gen1 K - n • gen1 K) := Jac.sub_rep (goodCurve1 K) hx h
  refine ⟨?_, ?_⟩
  · refine ⟨G1.onCurve_iff.2 ⟨_, hr⟩, (G1.inCorrectSubgroup_iff hr).2 ?_⟩
    rw [nsmul_sub, smul_smul_zero (q_smul_gen1 K), smul_smul_zero (q_smul_gen1 K), sub_zero]
  · rw [fast_eq (K := K) (.cons h (.cons hr .nil)) (by simp) (k := Keys.publicKey x) ?_]
    · cases e : (fromMessage m ciphersuiteId : Option (G2 K)) with
      | none => rw [sign, e] at hs; exact absurd hs (by simp)
      | some y =>
        obtain ⟨P, r, o⟩ := fromMessage_some id_length.1 e
        rw [sign, e, Option.map_some] at hs
        obtain rfl := Option.some.inj hs
        rw [verify_true_iff]
        refine ⟨y, P, wordsVal x % q, e, r, o, Nat.mod_lt _ q_prime.pos, ?_, ?_⟩
        · rw [smul_mod (q_smul_gen1 K)]; exact hx
        · rw [smul_mod o]; exact Jac.scale_rep (goodCurve2 K) r x
    · rw [List.sum_cons, List.sum_cons, List.sum_nil, add_zero, add_sub_cancel]; exact hx

end Bls.Sig
