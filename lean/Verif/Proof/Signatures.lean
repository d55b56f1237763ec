import Verif.Model.Signatures
import Verif.Spec.Signatures
import Verif.Proof.Hash
import Verif.Proof.Keys
import Verif.Proof.Map2
import Verif.Proof.PairIff

/-! # Lemmas on the signature functions -/

namespace Bls.Sig
open Rfc Pairing

variable {K : Type} [Field K] [FpOps K] [LawfulFp K] [DecidableEq K]

attribute [local irreducible] p q hEff2 eps pairVal

theorem modPrime_eq (k : List UInt64) (h : 6 ≤ k.length) : (modPrime k : Option K) = some (wordsVal k : K) := by
  obtain ⟨c, d, h1, _, h3, _, h5⟩ := Division.divnSafe_spec k MODULUS.words h (by decide) (by decide +kernel) (by decide +kernel)
  rw [modPrime, h1, Option.map_some, LawfulFp.toMont_eq, Fp.ofWords_val h3, h5, Fp.words_val, MODULUS_val]
  exact congrArg some (IsFp.natCast_eq_iff.2 (Nat.mod_mod _ _))

theorem fieldElement_eq (buf : List UInt8) (h : buf.length = 256) (j : ℕ) (hj : j < 4) :
    (fieldElement buf (64 * j) : Option K) = some (fieldComponent buf j) := by
  rw [fieldElement, modPrime_eq _ (by rw [Scalar.fromBytesBE_length]; decide), span, Scalar.fromBytesBE_val, fieldComponent]
  rw [List.length_take, List.length_drop]
  omega

theorem mapPoint_rep (t : Fp2 K) : ∃ P : E2 K, IsMap2 t P ∧ (mapPoint t).Rep P := map2 t

variable {H : List UInt8 → List UInt8} (hH : ∀ m, Fips.IsSha256 m (H m))

include hH in
theorem xmd_length {msg dst out : List UInt8} {L : ℕ} (h : expandMessageXmd H msg dst L = some out) :
    out.length = L := by
  rw [expandMessageXmd] at h
  dsimp only at h
  split at h
  · exact absurd h (by simp)
  · rw [← Option.some.inj h, List.length_take]
    have := Hash.blocks_length _ (fun i => Hash.xmdBlock_length hH (H (List.replicate 64 0 ++ msg ++ Fips.be 2 L ++ Fips.be 1 0 ++
      (dst ++ Fips.be 1 dst.length))) (dst ++ Fips.be 1 dst.length) i) ((L + 31) / 32)
    rw [Hash.blocks] at this
    rw [this]; omega

include hH in
theorem fromMessage_rep (msg dst : List UInt8) (hmsg : msg.length < 2 ^ 31) (hdst : dst.length ≤ 255) :
    ∃ a : G2 K, fromMessage msg dst = some a ∧ ∃ P : E2 K, IsHash H msg dst P ∧ a.Rep P := by
  obtain ⟨u, h1, h2⟩ := Hash.xmd_eq hH (List.replicate 256 0) msg dst (L := 256) hmsg hdst (by decide) List.length_replicate.ge
  have hl := xmd_length hH h1
  rw [List.drop_of_length_le List.length_replicate.le, List.append_nil] at h2
  obtain ⟨P0, m0, r0⟩ := mapPoint_rep (K := K) ⟨fieldComponent u 0, fieldComponent u 1⟩
  obtain ⟨P1, m1, r1⟩ := mapPoint_rep (K := K) ⟨fieldComponent u 2, fieldComponent u 3⟩
  refine ⟨_, ?_, hEff2 • (P0 + P1), ⟨u, h1, P0, P1, m0, m1, rfl⟩, clear_rep_eff.2 _ _ (Jac.add_rep (goodCurve2 K) r0 r1)⟩
  unfold fromMessage
  have h2' : Hash.xmd (List.replicate 256 0) 256 msg (Hash.toInt msg.length) dst (Hash.toInt dst.length) = some (0, u) := h2
  have e0 := fieldElement_eq (K := K) u hl 0 (by decide)
  have e1 := fieldElement_eq (K := K) u hl 1 (by decide)
  have e2 := fieldElement_eq (K := K) u hl 2 (by decide)
  have e3 := fieldElement_eq (K := K) u hl 3 (by decide)
  rw [h2']
  dsimp only
  rw [if_neg (by decide), show (0 : ℕ) = 64 * 0 from rfl, show (64 : ℕ) = 64 * 1 from rfl, show (128 : ℕ) = 64 * 2 from rfl,
    show (192 : ℕ) = 64 * 3 from rfl, e0, e1, e2, e3]
  rfl

theorem hash_order {msg dst : List UInt8} {P : E2 K} (h : IsHash H msg dst P) : q • P = 0 := by
  obtain ⟨_, _, _, _, _, _, rfl⟩ := h
  exact clear_order.2 _

/-! The pairing equation. -/

theorem isOneProduct_eq (v : List (G1 K × G2 K)) : ∃ b, isOneProduct v = some b ∧
    (b = true ↔ (v.map fun pq => pairVal pq.1 pq.2).prod = 1) := by
  refine ⟨_, by rw [isOneProduct, calculate_eq, Option.map_some], ?_⟩
  rw [Fp12.equal_iff, Fp12.one_eq, eq_comm]

theorem eps_neg {P : E1 K} {Q : E2 K} (hP : q • P = 0) (hQ : q • Q = 0) : eps (-P) Q * eps P Q = 1 := by
  rw [← eps_add_left (by rw [neg_nsmul, hP, neg_zero]) hP hQ, neg_add_cancel, eps_zero_left]

theorem check_iff {S T : E2 K} (hS : q • S = 0) (hT : q • T = 0) :
    eps (-(gen1 K)) S * eps (gen1 K) T = 1 ↔ S = T := by
  have hg := q_smul_gen1 K
  constructor
  · intro h
    refine eps_inj_right hg (gen1_ne_zero K) hS hT ?_
    have h1 := eps_neg hg hS
    generalize eps (-(gen1 K)) S = a at *
    generalize eps (gen1 K) S = b at *
    generalize eps (gen1 K) T = c at *
    have ha : a ≠ 0 := left_ne_zero_of_mul_eq_one h1
    exact mul_left_cancel₀ ha (h1.trans h.symm)
  · rintro rfl
    exact eps_neg hg hS

theorem eps_move {Q : E2 K} (hQ : q • Q = 0) (n : ℕ) : eps (n • gen1 K) Q = eps (gen1 K) (n • Q) := by
  rw [eps_smul_left (q_smul_gen1 K) hQ, eps_smul_right (q_smul_gen1 K) hQ]

theorem order_sum : ∀ {l : List (E2 K)}, (∀ P ∈ l, q • P = 0) → q • l.sum = 0
  | [], _ => by rw [List.sum_nil, nsmul_zero]
  | P :: l, h => by
    rw [List.sum_cons, nsmul_add, h P (by simp), order_sum fun Q hQ => h Q (by simp [hQ]), add_zero]

theorem prod_eps {ι : Type} (n : ι → ℕ) (Q : ι → E2 K) : ∀ {l : List ι}, (∀ i ∈ l, q • Q i = 0) →
    (l.map fun i => eps (n i • gen1 K) (Q i)).prod = eps (gen1 K) (l.map fun i => n i • Q i).sum
  | [], _ => by rw [List.map_nil, List.map_nil, List.prod_nil, List.sum_nil, eps_zero_right]
  | i :: l, h => by
    rw [List.map_cons, List.prod_cons, prod_eps n Q fun j hj => h j (by simp [hj]), List.map_cons, List.sum_cons,
      eps_add_right (q_smul_gen1 K) (smul_smul_zero (h i (by simp)) _), eps_move (h i (by simp))]
    refine order_sum fun P hP => ?_
    obtain ⟨j, hj, rfl⟩ := List.mem_map.1 hP
    exact smul_smul_zero (h j (by simp [hj])) _

theorem addPairs_prod {ι : Type} (a : ι → G1 K) (e : ι → G2 K) (P : ι → E1 K) (Q : ι → E2 K) :
    ∀ (l : List ι) (v : List (G1 K × G2 K)), (∀ i ∈ l, (a i).Rep (P i) ∧ (e i).Rep (Q i)) →
    ((l.foldl (fun v i => addPair v (a i) (e i)) v).map fun pq => pairVal pq.1 pq.2).prod =
      (v.map fun pq => pairVal pq.1 pq.2).prod * (l.map fun i => eps (P i) (Q i)).prod
  | [], v, _ => by rw [List.map_nil, List.prod_nil, mul_one, List.foldl_nil]
  | i :: l, v, h => by
    rw [List.foldl_cons, addPairs_prod a e P Q l _ fun j hj => h j (by simp [hj]),
      addPair_eps (h i (by simp)).1 (h i (by simp)).2, List.map_cons, List.prod_cons, mul_assoc]

/-! Membership. -/

theorem member1 {a : G1 K} : (a.isOnCurve FpC.B = true ∧ a.inCorrectSubgroup = true) ↔ ∃ n < q, a.Rep (n • gen1 K) := by
  constructor
  · intro h
    obtain ⟨P, hP, o⟩ := valid1 h
    obtain ⟨n, hn, rfl⟩ := exists_lt_smul (q_smul_gen1 K) (mem_gen1 K o)
    exact ⟨n, hn, hP⟩
  · rintro ⟨n, -, h⟩
    exact ⟨G1.onCurve_iff.2 ⟨_, h⟩, (G1.inCorrectSubgroup_iff h).2 (smul_smul_zero (q_smul_gen1 K) n)⟩

theorem member2 {a : G2 K} : (a.isOnCurve Fp2.B = true ∧ a.inCorrectSubgroup = true) ↔ ∃ P : E2 K, a.Rep P ∧ q • P = 0 :=
  ⟨valid2, fun ⟨P, h, o⟩ => ⟨G2.onCurve_iff.2 ⟨P, h⟩, (G2.inCorrectSubgroup_iff h).2 o⟩⟩

/-- The common part of `verify` and `pop_verify`. -/
def core (pk : G1 K) (h s : G2 K) : Option Bool :=
  if !pk.isOnCurve FpC.B || !pk.inCorrectSubgroup then some false
  else if !s.isOnCurve Fp2.B || !s.inCorrectSubgroup then some false
  else isOneProduct (addPair (addPair [] (G1.one : G1 K).negate s) pk h)

theorem core_iff (pk : G1 K) {h : G2 K} (s : G2 K) {P : E2 K} (hh : h.Rep P) (hP : q • P = 0) :
    ∃ b, core pk h s = some b ∧ (b = true ↔ ∃ n < q, pk.Rep (n • gen1 K) ∧ s.Rep (n • P)) := by
  unfold core
  by_cases h1 : pk.isOnCurve FpC.B = true ∧ pk.inCorrectSubgroup = true
  · rw [if_neg (by rw [h1.1, h1.2]; decide)]
    by_cases h2 : s.isOnCurve Fp2.B = true ∧ s.inCorrectSubgroup = true
    · rw [if_neg (by rw [h2.1, h2.2]; decide)]
      obtain ⟨n, hn, r1⟩ := member1.1 h1
      obtain ⟨S, r2, oS⟩ := member2.1 h2
      obtain ⟨b, e, hb⟩ := isOneProduct_eq (addPair (addPair [] (G1.one : G1 K).negate s) pk h)
      refine ⟨b, e, hb.trans ?_⟩
      rw [addPair_eps r1 hh, addPair_eps (Jac.neg_rep G1.one_rep) r2, List.map_nil, List.prod_nil, one_mul, eps_move hP,
        check_iff oS (smul_smul_zero hP n)]
      constructor
      · rintro rfl
        exact ⟨n, hn, r1, r2⟩
      · rintro ⟨m, hm, k1, k2⟩
        have e1 := r1.unique k1
        rw [Keys.smul_gen1_eq_iff, Nat.mod_eq_of_lt hn, Nat.mod_eq_of_lt hm] at e1
        subst e1
        exact r2.unique k2
    · rw [if_pos (by simpa [imp_iff_not_or] using h2)]
      refine ⟨false, rfl, by simp, ?_⟩
      rintro ⟨n, -, -, h3⟩
      exact absurd (member2.2 ⟨_, h3, smul_smul_zero hP n⟩) h2
  · rw [if_pos (by simpa [imp_iff_not_or] using h1)]
    refine ⟨false, rfl, by simp, ?_⟩
    rintro ⟨n, hn, h3, -⟩
    exact absurd (member1.2 ⟨n, hn, h3⟩) h1

theorem verify_eq (pk : G1 K) (m : List UInt8) (s : G2 K) :
    verify pk m s = (fromMessage m ciphersuiteId).bind fun h => core pk h s := rfl

theorem popVerify_eq (pk : G1 K) (s : G2 K) :
    popVerify pk s = (fromMessage (keyBytes pk) popCiphersuiteId).bind fun h => core pk h s := rfl

theorem id_length : ciphersuiteId.length ≤ 255 ∧ popCiphersuiteId.length ≤ 255 := by decide +kernel

include hH in
theorem verify_iff (pk : G1 K) (s : G2 K) {m : List UInt8} (hm : m.length < 2 ^ 31) :
    ∃ P : E2 K, IsHash H m ciphersuiteId P ∧
    ∃ b, verify pk m s = some b ∧ (b = true ↔ ∃ n < q, pk.Rep (n • gen1 K) ∧ s.Rep (n • P)) := by
  obtain ⟨a, e, P, hP, r⟩ := fromMessage_rep (K := K) hH m _ hm id_length.1
  rw [verify_eq, e, Option.bind_some]
  exact ⟨P, hP, core_iff pk s r (hash_order hP)⟩

theorem keyBytes_length (pk : G1 K) : (keyBytes pk).length = 96 := by
  have e : ∀ x : Fp, (Scalar.toBytesLE x.words).length = 48 := fun _ => rfl
  unfold keyBytes Jac.toAffineBytes
  split
  · exact List.length_replicate
  · rw [List.length_append, e, e]

include hH in
theorem popVerify_iff (pk : G1 K) (s : G2 K) :
    ∃ P : E2 K, IsHash H (keyBytes pk) popCiphersuiteId P ∧
    ∃ b, popVerify pk s = some b ∧ (b = true ↔ ∃ n < q, pk.Rep (n • gen1 K) ∧ s.Rep (n • P)) := by
  obtain ⟨a, e, P, hP, r⟩ := fromMessage_rep (K := K) hH (keyBytes pk) _ (by rw [keyBytes_length]; decide) id_length.2
  rw [popVerify_eq, e, Option.bind_some]
  exact ⟨P, hP, core_iff pk s r (hash_order hP)⟩

include hH in
theorem sign_rep (sk : List UInt64) {m : List UInt8} (hm : m.length < 2 ^ 31) :
    ∃ P : E2 K, IsHash H m ciphersuiteId P ∧ ∃ s : G2 K, sign sk m = some s ∧ s.Rep (wordsVal sk • P) := by
  obtain ⟨a, e, P, hP, r⟩ := fromMessage_rep (K := K) hH m _ hm id_length.1
  refine ⟨P, hP, _, by rw [sign, e, Option.map_some], Jac.scale_rep (goodCurve2 K) r sk⟩

include hH in
theorem popProve_rep (sk : List UInt64) :
    ∃ P : E2 K, IsHash H (keyBytes (Keys.publicKey sk : G1 K)) popCiphersuiteId P ∧
      ∃ s : G2 K, popProve sk = some s ∧ s.Rep (wordsVal sk • P) := by
  obtain ⟨a, e, P, hP, r⟩ := fromMessage_rep (K := K) hH (keyBytes (Keys.publicKey sk : G1 K)) _
    (by rw [keyBytes_length]; decide) id_length.2
  refine ⟨P, hP, _, by rw [popProve, e, Option.map_some], Jac.scale_rep (goodCurve2 K) r sk⟩

theorem smul_mod {G : Type*} [AddCommGroup G] {P : G} (hP : q • P = 0) (n : ℕ) : (n % q) • P = n • P := by
  have h := congrArg (· • P) (Nat.div_add_mod n q)
  rw [add_nsmul, mul_comm, mul_nsmul', hP, nsmul_zero, zero_add] at h
  exact h

/-! The specification of the hash is a function. -/

theorem hash_unique {msg dst : List UInt8} {P P' : E2 K} (h : IsHash H msg dst P) (h' : IsHash H msg dst P') : P = P' := by
  obtain ⟨u, e, A, B, hA, hB, rfl⟩ := h
  obtain ⟨u', e', A', B', hA', hB', rfl⟩ := h'
  rw [e] at e'
  obtain rfl := Option.some.inj e'
  rw [map2_unique hA hA', map2_unique hB hB']

/-! `aggregate_verify`. -/

theorem messageSet_aux : ∀ (ms s : List (List UInt8)),
    (ms.foldl (fun s m => if s.contains m then s else m :: s) s).length ≤ s.length + ms.length ∧
    ((ms.foldl (fun s m => if s.contains m then s else m :: s) s).length = s.length + ms.length ↔
      ms.Nodup ∧ ∀ m ∈ ms, m ∉ s)
  | [], s => by simp
  | m :: ms, s => by
    rw [List.foldl_cons]
    by_cases h : m ∈ s
    · rw [if_pos (by simpa using h)]
      have := (messageSet_aux ms s).1
      refine ⟨by rw [List.length_cons]; omega, ?_⟩
      rw [List.length_cons]
      constructor
      · intro h'; omega
      · intro h'
        exact absurd h (h'.2 m (by simp))
    · rw [if_neg (by simpa using h)]
      obtain ⟨h1, h2⟩ := messageSet_aux ms (m :: s)
      rw [List.length_cons, show s.length + 1 + ms.length = s.length + (ms.length + 1) by omega] at h1 h2
      rw [List.length_cons]
      refine ⟨h1, h2.trans ?_⟩
      rw [List.nodup_cons]
      constructor
      · rintro ⟨a, b⟩
        refine ⟨⟨fun hm => b m hm (by simp), a⟩, fun x hx => ?_⟩
        rcases List.mem_cons.1 hx with rfl | hx
        · exact h
        · exact fun hxs => b x hx (by simp [hxs])
      · rintro ⟨⟨a, a'⟩, b⟩
        refine ⟨a', fun x hx hxs => ?_⟩
        rcases List.mem_cons.1 hxs with rfl | hxs
        · exact a hx
        · exact b x (by simp [hx]) hxs

theorem messageSet_length (ms : List (List UInt8)) : (messageSet ms).length = ms.length ↔ ms.Nodup := by
  have := (messageSet_aux ms []).2
  rw [List.length_nil, zero_add] at this
  exact this.trans (by simp)

/-- The hash of a message as a total function. -/
def hm (m : List UInt8) : G2 K := (fromMessage m ciphersuiteId).getD Jac.zero

def ok1 (a : G1 K) : Bool := a.isOnCurve FpC.B && a.inCorrectSubgroup

theorem ok1_iff {a : G1 K} : ok1 a = true ↔ a.isOnCurve FpC.B = true ∧ a.inCorrectSubgroup = true := by
  rw [ok1, Bool.and_eq_true]

theorem hm_eq {m : List UInt8} (h : m.length < 2 ^ 31) : (fromMessage m ciphersuiteId : Option (G2 K)) = some (hm m) := by
  obtain ⟨a, e, -⟩ := fromMessage_rep (K := K) (H := fun m => Sha256.hash [m])
    (fun m => by have := Sha256.hash_isSha256 [m]; rwa [List.flatten_singleton] at this) m _ h id_length.1
  rw [hm, e]; rfl

theorem aggregateLoop_eq : ∀ (l : List (G1 K × List UInt8)) (v : List (G1 K × G2 K)), (∀ x ∈ l, x.2.length < 2 ^ 31) →
    aggregateLoop (l.map Prod.fst) (l.map Prod.snd) v =
      some (if (l.all fun x => ok1 x.1) then some (l.foldl (fun v x => addPair v x.1 (hm x.2)) v) else none)
  | [], v, _ => rfl
  | x :: l, v, h => by
    rw [List.map_cons, List.map_cons, aggregateLoop, hm_eq (h x (by simp)), Option.bind_some, List.all_cons,
      aggregateLoop_eq l _ fun y hy => h y (by simp [hy]), List.foldl_cons]
    by_cases hx : ok1 x.1 = true
    · obtain ⟨a, b⟩ := ok1_iff.1 hx
      rw [if_neg (by rw [a, b]; decide), hx, Bool.true_and]
    · rw [if_pos (by rw [ok1_iff] at hx; simpa [imp_iff_not_or] using hx)]
      rw [Bool.not_eq_true] at hx
      rw [hx]
      rfl

theorem aggregateVerify_eq (l : List (G1 K × List UInt8)) (s : G2 K) (dup : Bool) (h : ∀ x ∈ l, x.2.length < 2 ^ 31) :
    ∃ b, aggregateVerify (l.map Prod.fst) (l.map Prod.snd) s dup = some b ∧ (b = true ↔
      (s.isOnCurve Fp2.B = true ∧ s.inCorrectSubgroup = true) ∧ (dup = true → (l.map Prod.snd).Nodup) ∧
      (∀ x ∈ l, x.1.isOnCurve FpC.B = true ∧ x.1.inCorrectSubgroup = true) ∧
      ((l.foldl (fun v x => addPair v x.1 (hm x.2)) (addPair [] (G1.one : G1 K).negate s)).map
        fun pq => pairVal pq.1 pq.2).prod = 1) := by
  unfold aggregateVerify
  dsimp only
  by_cases hs : s.isOnCurve Fp2.B = true ∧ s.inCorrectSubgroup = true
  swap
  · rw [if_pos (by simpa [imp_iff_not_or] using hs)]
    exact ⟨false, rfl, by simp, fun h' => absurd h'.1 hs⟩
  rw [if_neg (by rw [hs.1, hs.2]; decide), if_neg (by rw [List.length_map, List.length_map]; exact fun h => h rfl)]
  have hd := messageSet_length (l.map Prod.snd)
  rw [List.length_map] at hd
  rw [List.length_map]
  by_cases h1 : dup = true → (l.map Prod.snd).Nodup
  swap
  · rw [Classical.not_imp] at h1
    rw [if_pos (by rw [h1.1, Bool.true_and, bne_iff_ne, Ne, hd]; exact h1.2)]
    exact ⟨false, rfl, by simp, fun h' => absurd (h'.2.1 h1.1) h1.2⟩
  rw [if_neg (by
    rw [Bool.and_eq_true, bne_iff_ne, Ne, hd]
    exact fun h' => h'.2 (h1 h'.1)), aggregateLoop_eq l _ h, Option.bind_some]
  by_cases h2 : (l.all fun x => ok1 x.1) = true
  · rw [if_pos h2]
    dsimp only
    obtain ⟨b, e, hb⟩ := isOneProduct_eq (l.foldl (fun v x => addPair v x.1 (hm x.2)) (addPair [] (G1.one : G1 K).negate s))
    refine ⟨b, e, hb.trans ?_⟩
    rw [List.all_eq_true] at h2
    exact ⟨fun h' => ⟨hs, h1, fun x hx => ok1_iff.1 (h2 x hx), h'⟩, fun h' => h'.2.2.2⟩
  · rw [if_neg h2]
    refine ⟨false, rfl, by simp, fun h' => absurd ?_ h2⟩
    rw [List.all_eq_true]
    exact fun x hx => ok1_iff.2 (h'.2.2.1 x hx)

/-- In terms of the secret scalars `n` and the hashes `Q`. -/
theorem aggregateVerify_iff (l : List (G1 K × List UInt8)) (s : G2 K) (dup : Bool) (h : ∀ x ∈ l, x.2.length < 2 ^ 31)
    (n : G1 K × List UInt8 → ℕ) (Q : List UInt8 → E2 K) (hn : ∀ x ∈ l, x.1.Rep (n x • gen1 K))
    (hQ : ∀ x ∈ l, (hm x.2).Rep (Q x.2)) (oQ : ∀ x ∈ l, q • Q x.2 = 0) :
    ∃ b, aggregateVerify (l.map Prod.fst) (l.map Prod.snd) s dup = some b ∧ (b = true ↔
      (dup = true → (l.map Prod.snd).Nodup) ∧ s.Rep (l.map fun x => n x • Q x.2).sum) := by
  obtain ⟨b, e, hb⟩ := aggregateVerify_eq l s dup h
  refine ⟨b, e, hb.trans ?_⟩
  have osum : q • (l.map fun x => n x • Q x.2).sum = 0 := order_sum fun P hP => by
    obtain ⟨x, hx, rfl⟩ := List.mem_map.1 hP
    exact smul_smul_zero (oQ x hx) _
  have key : ∀ S : E2 K, s.Rep S → q • S = 0 →
      (((l.foldl (fun v x => addPair v x.1 (hm x.2)) (addPair [] (G1.one : G1 K).negate s)).map
        fun pq => pairVal pq.1 pq.2).prod = 1 ↔ S = (l.map fun x => n x • Q x.2).sum) := by
    intro S hS oS
    rw [addPairs_prod (fun x => x.1) (fun x => hm x.2) (fun x => n x • gen1 K) (fun x => Q x.2) l _ fun x hx => ⟨hn x hx, hQ x hx⟩,
      addPair_eps (Jac.neg_rep G1.one_rep) hS, List.map_nil, List.prod_nil, one_mul, prod_eps n (fun x => Q x.2) oQ,
      check_iff oS osum]
  constructor
  · rintro ⟨h1, h2, -, h4⟩
    obtain ⟨S, hS, oS⟩ := member2.1 h1
    rw [(key S hS oS).1 h4] at hS
    exact ⟨h2, hS⟩
  · rintro ⟨h2, hS⟩
    refine ⟨member2.2 ⟨_, hS, osum⟩, h2, fun x hx => ?_, (key _ hS osum).2 rfl⟩
    exact ⟨G1.onCurve_iff.2 ⟨_, hn x hx⟩, (G1.inCorrectSubgroup_iff (hn x hx)).2 (smul_smul_zero (q_smul_gen1 K) _)⟩

/-! Messages of any length: the length is an `int`. -/

theorem toInt_mod (n : ℕ) : Hash.toInt (n % 2 ^ 32) = Hash.toInt n := by
  rw [Hash.toInt, Hash.toInt, Nat.mod_mod]

theorem piece_take (m : List UInt8) (h : m.length % 2 ^ 32 < 2 ^ 31) :
    Hash.piece m (Hash.toInt m.length) = Hash.piece (m.take (m.length % 2 ^ 32))
      (Hash.toInt (m.take (m.length % 2 ^ 32)).length) := by
  have hle : m.length % 2 ^ 32 ≤ m.length := Nat.mod_le _ _
  have e : (m.take (m.length % 2 ^ 32)).length = m.length % 2 ^ 32 := by rw [List.length_take]; omega
  rw [e, toInt_mod, Hash.toInt, if_pos h, Hash.piece, Hash.piece, e, if_pos (by omega), if_pos (by omega),
    Int.toNat_natCast, List.take_take, min_self]

theorem fromMessage_take (m dst : List UInt8) (h : m.length % 2 ^ 32 < 2 ^ 31) :
    (fromMessage m dst : Option (G2 K)) = fromMessage (m.take (m.length % 2 ^ 32)) dst := by
  unfold fromMessage Hash.xmd
  rw [piece_take m h]

theorem fromMessage_ub (m dst : List UInt8) (h : 2 ^ 31 ≤ m.length % 2 ^ 32) : (fromMessage m dst : Option (G2 K)) = none := by
  have hp : Hash.piece m (Hash.toInt m.length) = none := by
    rw [Hash.toInt, if_neg (by omega), Hash.piece, if_neg]
    have := Nat.mod_lt m.length (show 2 ^ 32 > 0 by decide)
    omega
  have : Hash.xmd (List.replicate 256 0) 256 m (Hash.toInt m.length) dst (Hash.toInt dst.length) = none ∨
      ∃ b, Hash.xmd (List.replicate 256 0) 256 m (Hash.toInt m.length) dst (Hash.toInt dst.length) = some (-1, b) := by
    unfold Hash.xmd
    dsimp only
    rw [hp]
    split
    · exact Or.inr ⟨_, rfl⟩
    · exact Or.inl rfl
  unfold fromMessage
  rcases this with e | ⟨b, e⟩
  · rw [e]
  · rw [e]
    rfl

theorem fromMessage_short {m dst : List UInt8} {a : G2 K} (h : fromMessage m dst = some a) :
    ∃ m', m'.length < 2 ^ 31 ∧ fromMessage m' dst = some a := by
  by_cases h1 : m.length % 2 ^ 32 < 2 ^ 31
  · refine ⟨m.take (m.length % 2 ^ 32), ?_, by rw [← fromMessage_take m dst h1]; exact h⟩
    rw [List.length_take]
    exact lt_of_le_of_lt (min_le_left _ _) h1
  · rw [fromMessage_ub m dst (not_lt.1 h1)] at h
    exact absurd h (by simp)

theorem sha_spec : ∀ m, Fips.IsSha256 m ((fun m => Sha256.hash [m]) m) := fun m => by
  have := Sha256.hash_isSha256 [m]
  rwa [List.flatten_singleton] at this

theorem fromMessage_some {m dst : List UInt8} (hd : dst.length ≤ 255) {a : G2 K} (h : fromMessage m dst = some a) :
    ∃ P : E2 K, a.Rep P ∧ q • P = 0 := by
  obtain ⟨m', h1, h2⟩ := fromMessage_short h
  obtain ⟨a', e, P, hP, r⟩ := fromMessage_rep (K := K) sha_spec m' dst h1 hd
  rw [h2] at e
  rw [Option.some.inj e]
  exact ⟨P, r, hash_order hP⟩

/-! Scalars and points by choice. -/

open Classical in
noncomputable def scal (a : G1 K) : ℕ := if h : ∃ n < q, a.Rep (n • gen1 K) then h.choose else 0

theorem scal_spec {a : G1 K} (h : a.isOnCurve FpC.B = true ∧ a.inCorrectSubgroup = true) : a.Rep (scal a • gen1 K) := by
  have := member1.1 h
  rw [scal, dif_pos this]
  exact this.choose_spec.2

open Classical in
noncomputable def hpt (m : List UInt8) : E2 K := if h : ∃ P : E2 K, (hm m : G2 K).Rep P ∧ q • P = 0 then h.choose else 0

theorem hpt_spec {m : List UInt8} (h : m.length < 2 ^ 31) : (hm m : G2 K).Rep (hpt m) ∧ q • (hpt m : E2 K) = 0 := by
  have := fromMessage_some id_length.1 (hm_eq (K := K) h)
  rw [hpt, dif_pos this]
  exact this.choose_spec

/-- The signature point of a key and a message. -/
noncomputable def contrib (x : G1 K × List UInt8) : E2 K := scal x.1 • hpt x.2

/-- The decision of `aggregate_verify`. -/
theorem aggregateVerify_choice (l : List (G1 K × List UInt8)) (s : G2 K) (dup : Bool) (h : ∀ x ∈ l, x.2.length < 2 ^ 31) :
    ∃ b, aggregateVerify (l.map Prod.fst) (l.map Prod.snd) s dup = some b ∧ (b = true ↔
      (dup = true → (l.map Prod.snd).Nodup) ∧
      (∀ x ∈ l, x.1.isOnCurve FpC.B = true ∧ x.1.inCorrectSubgroup = true) ∧
      s.Rep (l.map contrib).sum) := by
  obtain ⟨b, e, hb⟩ := aggregateVerify_eq l s dup h
  refine ⟨b, e, ?_⟩
  by_cases hv : ∀ x ∈ l, x.1.isOnCurve FpC.B = true ∧ x.1.inCorrectSubgroup = true
  · obtain ⟨b', e', hb'⟩ := aggregateVerify_iff l s dup h (fun x => scal x.1) hpt (fun x hx => scal_spec (hv x hx))
      (fun x hx => (hpt_spec (h x hx)).1) (fun x hx => (hpt_spec (h x hx)).2)
    rw [e] at e'
    obtain rfl := Option.some.inj e'
    exact hb'.trans ⟨fun h' => ⟨h'.1, hv, h'.2⟩, fun h' => ⟨h'.1, h'.2.2⟩⟩
  · exact ⟨fun h' => absurd (hb.1 h').2.2.1 hv, fun h' => absurd h'.2.1 hv⟩

theorem aggregateVerify_length (pks : List (G1 K)) (ms : List (List UInt8)) (s : G2 K) (dup : Bool)
    (h : pks.length ≠ ms.length) : aggregateVerify pks ms s dup = some false := by
  unfold aggregateVerify
  dsimp only
  split
  · rfl
  · rfl

theorem eq_zip : ∀ {α β : Type} {l : List α} {l' : List β}, l.length = l'.length →
    l = (l.zip l').map Prod.fst ∧ l' = (l.zip l').map Prod.snd := by
  intro α β l l' h
  exact ⟨(List.map_fst_zip h.le).symm, (List.map_snd_zip h.ge).symm⟩

/-- The key bytes depend on the point only. -/
theorem keyBytes_eq {a b : G1 K} {P : E1 K} (h : a.Rep P) (h' : b.Rep P) : keyBytes a = keyBytes b := by
  unfold keyBytes Jac.toAffineBytes
  match P, h, h' with
  | .zero, h, h' => rw [if_pos (h.isZero_iff.2 rfl), if_pos (h'.isZero_iff.2 rfl)]
  | .some x y hxy, h, h' =>
    rw [if_neg (by rw [Jac.isZero_false.2 h.1]; decide), if_neg (by rw [Jac.isZero_false.2 h'.1]; decide),
      Jac.affine_some h, Jac.affine_some h']

theorem publicKey_member (sk : List UInt64) :
    (Keys.publicKey sk : G1 K).isOnCurve FpC.B = true ∧ (Keys.publicKey sk : G1 K).inCorrectSubgroup = true :=
  member1.2 ⟨wordsVal sk % q, Nat.mod_lt _ q_prime.pos, by
    rw [smul_mod (q_smul_gen1 _)]; exact Keys.publicKey_rep sk⟩

theorem honest_point (sk : List UInt64) {m : List UInt8} (hl : m.length < 2 ^ 31) {s : G2 K} (h : sign sk m = some s) :
    s.Rep (contrib ((Keys.publicKey sk : G1 K), m)) := by
  obtain ⟨r, o⟩ := hpt_spec (K := K) hl
  rw [sign, hm_eq hl, Option.map_some] at h
  obtain rfl := Option.some.inj h
  have h2 := (scal_spec (publicKey_member (K := K) sk)).unique (Keys.publicKey_rep sk)
  rw [Keys.smul_gen1_eq_iff] at h2
  have h3 : scal (Keys.publicKey sk : G1 K) • (hpt m : E2 K) = wordsVal sk • hpt m := by
    rw [← smul_mod o, h2, smul_mod o]
  rw [contrib, h3]
  exact Jac.scale_rep (goodCurve2 _) r sk

theorem forall₂_flip_mem {α β : Type} {R : α → β → Prop} {S : β → α → Prop} {l : List α} {l' : List β} (h : List.Forall₂ R l l')
    (hi : ∀ x ∈ l, ∀ s, R x s → S s x) : List.Forall₂ S l' l := by
  induction h with
  | nil => exact List.Forall₂.nil
  | cons hx _ ih => exact List.Forall₂.cons (hi _ (by simp) _ hx) (ih fun y hy => hi y (by simp [hy]))

theorem aggregate_honest (l : List (List UInt64 × List UInt8)) (sigs : List (G2 K)) (dup : Bool)
    (hl : ∀ x ∈ l, x.2.length < 2 ^ 31) (h : List.Forall₂ (fun x s => sign x.1 x.2 = some s) l sigs)
    (hd : dup = true → (l.map Prod.snd).Nodup) :
    aggregateVerify (l.map fun x => Keys.publicKey x.1) (l.map Prod.snd) (Keys.aggregate sigs) dup = some true := by
  have e1 : (l.map fun x => (Keys.publicKey x.1 : G1 K)) = (l.map fun x => ((Keys.publicKey x.1 : G1 K), x.2)).map Prod.fst := by
    rw [List.map_map]; rfl
  have e2 : l.map Prod.snd = (l.map fun x => ((Keys.publicKey x.1 : G1 K), x.2)).map Prod.snd := by
    rw [List.map_map]; rfl
  obtain ⟨b, e, hb⟩ := aggregateVerify_choice (l.map fun x => ((Keys.publicKey x.1 : G1 K), x.2)) (Keys.aggregate sigs) dup
    (by
      intro x hx
      obtain ⟨y, hy, rfl⟩ := List.mem_map.1 hx
      exact hl y hy)
  rw [← e1, ← e2] at e
  rw [← e2] at hb
  rw [e, Option.some_inj, hb]
  refine ⟨hd, ?_, ?_⟩
  · intro x hx
    obtain ⟨y, hy, rfl⟩ := List.mem_map.1 hx
    exact publicKey_member y.1
  · refine Keys.aggregate_rep (goodCurve2 _) ?_
    have e4 : ((l.map fun x => ((Keys.publicKey x.1 : G1 K), x.2)).map contrib) =
        l.map (fun x => contrib ((Keys.publicKey x.1 : G1 K), x.2)) := by rw [List.map_map]; rfl
    rw [e4, List.forall₂_map_right_iff]
    exact forall₂_flip_mem h fun x hx s hs => honest_point x.1 (hl x hx) hs

theorem fast_honest (sks : List (List UInt64)) (m : List UInt8) (sigs : List (G2 K)) (h0 : sks ≠ [])
    (h : List.Forall₂ (fun sk s => sign sk m = some s) sks sigs) :
    popFastAggregateVerify (sks.map Keys.publicKey) m (Keys.aggregate sigs) = some true := by
  obtain ⟨sk0, sks', rfl⟩ := List.exists_cons_of_ne_nil h0
  unfold popFastAggregateVerify
  rw [if_neg (by simp), verify_eq]
  cases e : (fromMessage m ciphersuiteId : Option (G2 K)) with
  | none =>
    cases h with
    | cons h _ => rw [sign, e] at h; exact absurd h (by simp)
  | some a =>
    obtain ⟨P, r, o⟩ := fromMessage_some id_length.1 e
    rw [Option.bind_some]
    obtain ⟨b, e1, hb⟩ := core_iff (Keys.aggregate ((sk0 :: sks').map Keys.publicKey)) (Keys.aggregate sigs) r o
    rw [e1, hb.2]
    generalize sk0 :: sks' = l at h
    have key : (Keys.aggregate (l.map Keys.publicKey) : G1 K).Rep ((l.map wordsVal).sum • gen1 K) ∧
        (Keys.aggregate sigs).Rep ((l.map wordsVal).sum • P) := by
      have h1 : List.Forall₂ Jac.Rep (l.map Keys.publicKey : List (G1 K)) (l.map fun sk => wordsVal sk • gen1 K) := by
        rw [List.forall₂_map_left_iff, List.forall₂_map_right_iff, List.forall₂_same]
        exact fun sk _ => Keys.publicKey_rep sk
      have h2 : List.Forall₂ Jac.Rep sigs (l.map fun sk => wordsVal sk • P) := by
        rw [List.forall₂_map_right_iff]
        refine h.flip.imp fun s sk hs => ?_
        rw [sign, e, Option.map_some] at hs
        rw [← Option.some.inj hs]
        exact Jac.scale_rep (goodCurve2 _) r sk
      have hsum : ∀ {G : Type} [AddCommGroup G] (g : G) (l : List (List UInt64)),
          (l.map fun sk => wordsVal sk • g).sum = (l.map wordsVal).sum • g := by
        intro G _ g l
        induction l with
        | nil => rw [List.map_nil, List.map_nil, List.sum_nil, List.sum_nil, zero_nsmul]
        | cons a l ih => rw [List.map_cons, List.map_cons, List.sum_cons, List.sum_cons, ih, add_nsmul]
      rw [← hsum, ← hsum]
      exact ⟨Keys.aggregate_rep (goodCurve1 _) h1, Keys.aggregate_rep (goodCurve2 _) h2⟩
    refine ⟨(l.map wordsVal).sum % q, Nat.mod_lt _ q_prime.pos, ?_, ?_⟩
    · rw [smul_mod (q_smul_gen1 _)]; exact key.1
    · rw [smul_mod o]; exact key.2

/-! Exact conditions for acceptance. -/

theorem some_true_iff {x : Option Bool} {Q : Prop} (h : ∃ b, x = some b ∧ (b = true ↔ Q)) : x = some true ↔ Q := by
  obtain ⟨b, rfl, hb⟩ := h
  rw [Option.some_inj, hb]

theorem eq_of_iff {x y : Option Bool} {Q : Prop} (h : ∃ b, x = some b ∧ (b = true ↔ Q)) (h' : ∃ b, y = some b ∧ (b = true ↔ Q)) :
    x = y := by
  obtain ⟨b, rfl, hb⟩ := h
  obtain ⟨b', rfl, hb'⟩ := h'
  rw [Option.some_inj, Bool.eq_iff_iff, hb, hb']

theorem bind_true_iff (x : Option (G2 K)) (hx : ∀ a, x = some a → ∃ P : E2 K, a.Rep P ∧ q • P = 0) (pk : G1 K) (s : G2 K) :
    (x.bind fun h => core pk h s) = some true ↔
      ∃ (a : G2 K) (P : E2 K) (n : ℕ), x = some a ∧ a.Rep P ∧ q • P = 0 ∧ n < q ∧ pk.Rep (n • gen1 K) ∧ s.Rep (n • P) := by
  cases hxe : x with
  | none => simp
  | some a =>
    obtain ⟨P, r, o⟩ := hx a hxe
    rw [Option.bind_some, some_true_iff (core_iff pk s r o)]
    constructor
    · rintro ⟨n, hn, h1, h2⟩
      exact ⟨a, P, n, rfl, r, o, hn, h1, h2⟩
    · rintro ⟨a', P', n, e, r', -, hn, h1, h2⟩
      obtain rfl := Option.some.inj e
      obtain rfl := r.unique r'
      exact ⟨n, hn, h1, h2⟩

theorem verify_true_iff (pk : G1 K) (m : List UInt8) (s : G2 K) : verify pk m s = some true ↔
    ∃ (a : G2 K) (P : E2 K) (n : ℕ), fromMessage m ciphersuiteId = some a ∧ a.Rep P ∧ q • P = 0 ∧ n < q ∧
      pk.Rep (n • gen1 K) ∧ s.Rep (n • P) :=
  bind_true_iff _ (fun _ => fromMessage_some id_length.1) pk s

theorem popVerify_true_iff (pk : G1 K) (s : G2 K) : popVerify pk s = some true ↔
    ∃ (a : G2 K) (P : E2 K) (n : ℕ), fromMessage (keyBytes pk) popCiphersuiteId = some a ∧ a.Rep P ∧ q • P = 0 ∧ n < q ∧
      pk.Rep (n • gen1 K) ∧ s.Rep (n • P) :=
  bind_true_iff _ (fun _ => fromMessage_some id_length.2) pk s

theorem verify_exact (pk : G1 K) (m : List UInt8) (s : G2 K) : verify pk m s = some true ↔
    pk.isOnCurve FpC.B = true ∧ s.isOnCurve Fp2.B = true ∧ ∃ sk, sk.length = 4 ∧ wordsVal sk < q ∧
      pk.equal (Keys.publicKey sk) = true ∧ ∃ s', sign sk m = some s' ∧ s.equal s' = true := by
  rw [verify_true_iff]
  constructor
  · rintro ⟨a, P, n, e, r, o, hn, h1, h2⟩
    obtain ⟨sk, hl, rfl⟩ := Keys.exists_words hn
    refine ⟨G1.onCurve_iff.2 ⟨_, h1⟩, G2.onCurve_iff.2 ⟨_, h2⟩, sk, hl, hn, (Jac.equal_iff h1 (Keys.publicKey_rep sk)).2 rfl,
      a.scale sk, by rw [sign, e, Option.map_some], (Jac.equal_iff h2 (Jac.scale_rep (goodCurve2 K) r sk)).2 rfl⟩
  · rintro ⟨h1, h2, sk, hl, hn, h3, s', h4, h5⟩
    obtain ⟨A, hA⟩ := G1.onCurve_iff.1 h1
    obtain ⟨S, hS⟩ := G2.onCurve_iff.1 h2
    rw [Jac.equal_iff hA (Keys.publicKey_rep sk)] at h3
    cases e : (fromMessage m ciphersuiteId : Option (G2 K)) with
    | none => rw [sign, e] at h4; exact absurd h4 (by simp)
    | some a =>
      obtain ⟨P, r, o⟩ := fromMessage_some id_length.1 e
      rw [sign, e, Option.map_some] at h4
      obtain rfl := Option.some.inj h4
      rw [Jac.equal_iff hS (Jac.scale_rep (goodCurve2 K) r sk)] at h5
      subst h3 h5
      exact ⟨a, P, wordsVal sk, rfl, r, o, hn, hA, hS⟩

theorem popVerify_exact (pk : G1 K) (s : G2 K) : popVerify pk s = some true ↔
    pk.isOnCurve FpC.B = true ∧ s.isOnCurve Fp2.B = true ∧ ∃ sk, sk.length = 4 ∧ wordsVal sk < q ∧
      pk.equal (Keys.publicKey sk) = true ∧ ∃ s', popProve sk = some s' ∧ s.equal s' = true := by
  rw [popVerify_true_iff]
  constructor
  · rintro ⟨a, P, n, e, r, o, hn, h1, h2⟩
    obtain ⟨sk, hl, rfl⟩ := Keys.exists_words hn
    refine ⟨G1.onCurve_iff.2 ⟨_, h1⟩, G2.onCurve_iff.2 ⟨_, h2⟩, sk, hl, hn, (Jac.equal_iff h1 (Keys.publicKey_rep sk)).2 rfl,
      a.scale sk, ?_, (Jac.equal_iff h2 (Jac.scale_rep (goodCurve2 K) r sk)).2 rfl⟩
    rw [popProve, ← keyBytes_eq h1 (Keys.publicKey_rep sk), e, Option.map_some]
  · rintro ⟨h1, h2, sk, hl, hn, h3, s', h4, h5⟩
    obtain ⟨A, hA⟩ := G1.onCurve_iff.1 h1
    obtain ⟨S, hS⟩ := G2.onCurve_iff.1 h2
    rw [Jac.equal_iff hA (Keys.publicKey_rep sk)] at h3
    subst h3
    rw [keyBytes_eq hA (Keys.publicKey_rep sk)]
    cases e : (fromMessage (keyBytes (Keys.publicKey sk : G1 K)) popCiphersuiteId : Option (G2 K)) with
    | none => rw [popProve, e] at h4; exact absurd h4 (by simp)
    | some a =>
      obtain ⟨P, r, o⟩ := fromMessage_some id_length.2 e
      rw [popProve, e, Option.map_some] at h4
      obtain rfl := Option.some.inj h4
      rw [Jac.equal_iff hS (Jac.scale_rep (goodCurve2 K) r sk)] at h5
      subst h5
      exact ⟨a, P, wordsVal sk, rfl, r, o, hn, hA, hS⟩

theorem verify_unique {pk : G1 K} {m : List UInt8} {s s' : G2 K} (h : verify pk m s = some true)
    (h' : verify pk m s' = some true) : s.equal s' = true := by
  obtain ⟨a, P, n, e, r, o, hn, h1, h2⟩ := (verify_true_iff _ _ _).1 h
  obtain ⟨a', P', n', e', r', o', hn', h1', h2'⟩ := (verify_true_iff _ _ _).1 h'
  rw [e] at e'
  obtain rfl := Option.some.inj e'
  obtain rfl := r.unique r'
  have e1 := h1.unique h1'
  rw [Keys.smul_gen1_eq_iff, Nat.mod_eq_of_lt hn, Nat.mod_eq_of_lt hn'] at e1
  subst e1
  exact (Jac.equal_iff h2 h2').2 rfl

theorem popVerify_unique {pk : G1 K} {s s' : G2 K} (h : popVerify pk s = some true)
    (h' : popVerify pk s' = some true) : s.equal s' = true := by
  obtain ⟨a, P, n, e, r, o, hn, h1, h2⟩ := (popVerify_true_iff _ _).1 h
  obtain ⟨a', P', n', e', r', o', hn', h1', h2'⟩ := (popVerify_true_iff _ _).1 h'
  rw [e] at e'
  obtain rfl := Option.some.inj e'
  obtain rfl := r.unique r'
  have e1 := h1.unique h1'
  rw [Keys.smul_gen1_eq_iff, Nat.mod_eq_of_lt hn, Nat.mod_eq_of_lt hn'] at e1
  subst e1
  exact (Jac.equal_iff h2 h2').2 rfl

theorem core_congr {pk pk' : G1 K} {h s s' : G2 K} {A : E1 K} {P S : E2 K} (h1 : pk.Rep A) (h1' : pk'.Rep A) (hs : s.Rep S)
    (hs' : s'.Rep S) (hh : h.Rep P) (o : q • P = 0) : core pk h s = core pk' h s' := by
  obtain ⟨b, e, hb⟩ := core_iff pk s hh o
  obtain ⟨b', e', hb'⟩ := core_iff pk' s' hh o
  rw [e, e', Option.some_inj, Bool.eq_iff_iff, hb, hb']
  constructor
  · rintro ⟨n, hn, k1, k2⟩
    have e1 := k1.unique h1
    have e2 := k2.unique hs
    refine ⟨n, hn, ?_, ?_⟩
    · rw [e1]; exact h1'
    · rw [e2]; exact hs'
  · rintro ⟨n, hn, k1, k2⟩
    have e1 := k1.unique h1'
    have e2 := k2.unique hs'
    refine ⟨n, hn, ?_, ?_⟩
    · rw [e1]; exact h1
    · rw [e2]; exact hs

theorem bind_congr_some {α β : Type} {x : Option α} {f g : α → Option β} (h : ∀ a, x = some a → f a = g a) : x.bind f = x.bind g := by
  cases x with
  | none => rfl
  | some a => exact h a rfl

/-- The answer depends on the points only. -/
theorem verify_congr {pk pk' : G1 K} {s s' : G2 K} {A : E1 K} {S : E2 K} (h : pk.Rep A) (h' : pk'.Rep A) (hs : s.Rep S)
    (hs' : s'.Rep S) (m : List UInt8) : verify pk m s = verify pk' m s' := by
  rw [verify_eq, verify_eq]
  refine bind_congr_some fun a e => ?_
  obtain ⟨P, r, o⟩ := fromMessage_some id_length.1 e
  exact core_congr h h' hs hs' r o

/-- An off-curve or wrong-subgroup key or signature. -/
theorem core_reject {pk : G1 K} {h s : G2 K} (hr : ¬ (pk.isOnCurve FpC.B = true ∧ pk.inCorrectSubgroup = true) ∨
    ¬ (s.isOnCurve Fp2.B = true ∧ s.inCorrectSubgroup = true)) : core pk h s = some false := by
  unfold core
  by_cases h1 : pk.isOnCurve FpC.B = true ∧ pk.inCorrectSubgroup = true
  · rw [if_neg (by rw [h1.1, h1.2]; decide), if_pos]
    rcases hr with h2 | h2
    · exact absurd h1 h2
    · simpa [imp_iff_not_or] using h2
  · rw [if_pos (by simpa [imp_iff_not_or] using h1)]

theorem aggregateVerify_sig {pks : List (G1 K)} {ms : List (List UInt8)} {s : G2 K} {dup : Bool}
    (h : ¬ (s.isOnCurve Fp2.B = true ∧ s.inCorrectSubgroup = true)) : aggregateVerify pks ms s dup = some false := by
  unfold aggregateVerify
  dsimp only
  rw [if_pos (by simpa [imp_iff_not_or] using h)]

theorem aggregateVerify_dup {pks : List (G1 K)} {ms : List (List UInt8)} {s : G2 K}
    (h : ¬ ms.Nodup) : aggregateVerify pks ms s true = some false := by
  unfold aggregateVerify
  dsimp only
  by_cases h1 : (!s.isOnCurve Fp2.B || !s.inCorrectSubgroup) = true
  · rw [if_pos h1]
  · rw [if_neg h1]
    by_cases h2 : pks.length = ms.length
    · rw [if_neg (fun h => h h2), if_pos]
      rw [Bool.true_and, bne_iff_ne, Ne, h2, messageSet_length]
      exact h
    · rw [if_pos h2]

theorem mul_eq_one_iff_of_inv {L : Type} [Field L] {a c w : L} (hn : a * c = 1) : a * w = 1 ↔ c = w := by
  have ha : a ≠ 0 := left_ne_zero_of_mul_eq_one hn
  constructor
  · intro h
    exact mul_left_cancel₀ ha (hn.trans h.symm)
  · rintro rfl
    exact hn

theorem zipWith_fst {α β γ δ : Type} (f : α → γ → δ) (g : β → γ) (l : List (α × β)) :
    List.zipWith f (l.map Prod.fst) (l.map fun x => g x.2) = l.map fun x => f x.1 (g x.2) := by
  induction l with
  | nil => rfl
  | cons a l ih => rw [List.map_cons, List.map_cons, List.zipWith_cons_cons, ih, List.map_cons]

set_option maxHeartbeats 1000000 in
theorem pairing_sides (l : List (G1 K × List UInt8)) (s : G2 K)
    (pr : G1 K → G2 K → Option (Fp12 K)) (hpr : ∀ a e, pr a e = (calculate (addPair [] a e) none ()).map Prod.fst)
    (pt : G1 K × List UInt8 → E1 K) (Q : List UInt8 → E2 K) (S : E2 K) (rS : s.Rep S) (oS : q • S = 0)
    (hn : ∀ x ∈ l, x.1.Rep (pt x)) (hQ : ∀ x ∈ l, (hm x.2).Rep (Q x.2))
    (he : ∀ x ∈ l, (fromMessage x.2 ciphersuiteId : Option (G2 K)) = some (hm x.2)) :
    ((l.foldl (fun v x => addPair v x.1 (hm x.2)) (addPair [] (G1.one : G1 K).negate s)).map
        fun pq => pairVal pq.1 pq.2).prod = 1 ↔
    ∃ (hs : List (G2 K)) (vs : List (Fp12 K)), (l.map Prod.snd).map (fun m => fromMessage m ciphersuiteId) = hs.map some ∧
        List.zipWith pr (l.map Prod.fst) hs = vs.map some ∧ pr G1.one s = some vs.prod := by
  have hh : (l.map Prod.snd).map (fun m => (fromMessage m ciphersuiteId : Option (G2 K))) = (l.map fun x => hm x.2).map some := by
    rw [List.map_map, List.map_map]
    exact List.map_congr_left he
  have hz : List.zipWith pr (l.map Prod.fst) (l.map fun x => hm x.2) = (l.map fun x => eps (pt x) (Q x.2)).map some := by
    have e5 : ∀ x ∈ l, pr x.1 (hm x.2) = some (eps (pt x) (Q x.2)) := fun x hx => by
      rw [hpr, calc_eps (hn x hx) (hQ x hx)]
    rw [zipWith_fst, List.map_map]
    exact List.map_congr_left e5
  have h1 : ((l.foldl (fun v x => addPair v x.1 (hm x.2)) (addPair [] (G1.one : G1 K).negate s)).map
        fun pq => pairVal pq.1 pq.2).prod = eps (-(gen1 K)) S * (l.map fun x => eps (pt x) (Q x.2)).prod := by
    rw [addPairs_prod (fun x => x.1) (fun x => hm x.2) pt (fun x => Q x.2) l _ fun x hx => ⟨hn x hx, hQ x hx⟩,
      addPair_eps (Jac.neg_rep G1.one_rep) rS, List.map_nil, List.prod_nil, one_mul]
  have h2 : pr G1.one s = some (eps (gen1 K) S) := by rw [hpr, calc_eps G1.one_rep rS]
  have h3 : eps (-(gen1 K)) S * (l.map fun x => eps (pt x) (Q x.2)).prod = 1 ↔
      eps (gen1 K) S = (l.map fun x => eps (pt x) (Q x.2)).prod := by
    have hn := eps_neg (q_smul_gen1 K) oS
    exact mul_eq_one_iff_of_inv hn
  rw [h1, h3, h2]
  constructor
  · intro h4
    exact ⟨_, _, hh, hz, congrArg some h4⟩
  · rintro ⟨hs, vs, k1, k2, k3⟩
    rw [hh] at k1
    obtain rfl := List.map_injective_iff.2 (Option.some_injective _) k1
    rw [hz] at k2
    obtain rfl := List.map_injective_iff.2 (Option.some_injective _) k2
    exact Option.some.inj k3

/-- The decision of `aggregate_verify` as an equation between pairings. -/
theorem aggregateVerify_pairing (l : List (G1 K × List UInt8)) (s : G2 K) (dup : Bool) (h : ∀ x ∈ l, x.2.length < 2 ^ 31)
    (pr : G1 K → G2 K → Option (Fp12 K)) (hpr : ∀ a e, pr a e = (calculate (addPair [] a e) none ()).map Prod.fst) :
    ∃ b, aggregateVerify (l.map Prod.fst) (l.map Prod.snd) s dup = some b ∧ (b = true ↔
      (s.isOnCurve Fp2.B = true ∧ s.inCorrectSubgroup = true) ∧ (dup = true → (l.map Prod.snd).Nodup) ∧
      (∀ x ∈ l, x.1.isOnCurve FpC.B = true ∧ x.1.inCorrectSubgroup = true) ∧
      ∃ (hs : List (G2 K)) (vs : List (Fp12 K)), (l.map Prod.snd).map (fun m => fromMessage m ciphersuiteId) = hs.map some ∧
        List.zipWith pr (l.map Prod.fst) hs = vs.map some ∧ pr G1.one s = some vs.prod) := by
  obtain ⟨b, e, hb⟩ := aggregateVerify_eq l s dup h
  refine ⟨b, e, hb.trans (and_congr_right fun hS => and_congr_right fun _ => and_congr_right fun hv => ?_)⟩
  obtain ⟨S, rS, oS⟩ := member2.1 hS
  exact pairing_sides l s pr hpr (fun x => scal x.1 • gen1 K) hpt S rS oS (fun x hx => scal_spec (hv x hx))
    (fun x hx => (hpt_spec (h x hx)).1) fun x hx => hm_eq (h x hx)

theorem aggregateVerify_perm {l l' : List (G1 K × List UInt8)} (hp : l.Perm l') (s : G2 K) (dup : Bool)
    (h : ∀ x ∈ l, x.2.length < 2 ^ 31) :
    aggregateVerify (l.map Prod.fst) (l.map Prod.snd) s dup = aggregateVerify (l'.map Prod.fst) (l'.map Prod.snd) s dup := by
  refine eq_of_iff (aggregateVerify_choice l s dup h) ?_
  obtain ⟨b, e, hb⟩ := aggregateVerify_choice l' s dup fun x hx => h x (hp.mem_iff.2 hx)
  refine ⟨b, e, hb.trans ?_⟩
  rw [(hp.map Prod.snd).nodup_iff, (hp.map contrib).sum_eq]
  refine and_congr_right fun _ => and_congr_left fun _ => ?_
  exact ⟨fun k x hx => k x (hp.mem_iff.1 hx), fun k x hx => k x (hp.mem_iff.2 hx)⟩

end Bls.Sig
