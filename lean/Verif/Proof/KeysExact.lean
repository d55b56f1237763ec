import Verif.Proof.Carry
import Verif.Proof.Keys

/-! Exactly when `aggregate_secret_keys` returns the sum. -/

namespace Bls.Scalar

/-- Upper bound of what `addLoop` can lose. -/
def lossBound : List UInt64 → ℕ
  | [] => 0
  | w :: ws => 2 ^ 64 * ((if w.toNat = 2 ^ 64 - 1 then 1 else 0) + lossBound ws)

theorem add64_lower (x y c : UInt64) (hc : c.toNat ≤ 1) : x.toNat + y.toNat + c.toNat ≤
    (add64 x y c).1.toNat + 2 ^ 64 * (add64 x y c).2.toNat + 2 ^ 64 * (if y.toNat = 2 ^ 64 - 1 then 1 else 0) := by
  rw [add64_toNat, add64_carry_toNat]
  have := u64_lt x; have := u64_lt y
  rw [two64] at *
  split <;> split <;> omega

theorem addLoop_lower : ∀ (n : ℕ) (a b : List UInt64) (c : UInt64), a.length = n → b.length = n → c.toNat ≤ 1 →
    wordsVal a + wordsVal b + c.toNat ≤
      wordsVal (addLoop n a b c).1 + 2 ^ (64 * n) * (addLoop n a b c).2.toNat + lossBound b
  | 0, a, b, c, ha, hb, hc => by
    rw [List.length_eq_zero_iff.1 ha, List.length_eq_zero_iff.1 hb]
    simp [addLoop, wordsVal]
  | n + 1, [], _, c, ha, _, _ => by simp at ha
  | n + 1, _ :: _, [], c, _, hb, _ => by simp at hb
  | n + 1, x :: a, y :: b, c, ha, hb, hc => by
    have h1 := add64_lower x y c hc
    have ih := addLoop_lower n a b (add64 x y c).2 (by simpa using ha) (by simpa using hb) (add64_carry_le x y c)
    have e1 : (addLoop (n + 1) (x :: a) (y :: b) c).1 = (add64 x y c).1 :: (addLoop n a b (add64 x y c).2).1 := rfl
    have e2 : (addLoop (n + 1) (x :: a) (y :: b) c).2 = (addLoop n a b (add64 x y c).2).2 := rfl
    rw [e1, e2, wordsVal, wordsVal, wordsVal, lossBound, show 64 * (n + 1) = 64 + 64 * n by ring, pow_add, mul_assoc]
    generalize 2 ^ (64 * n) * _ = z at *
    generalize (if y.toNat = 2 ^ 64 - 1 then 1 else 0) = t at *
    omega

end Bls.Scalar

namespace Bls.Keys
open Scalar

attribute [local irreducible] q

theorem lossBound_key {b : List UInt64} (hl : b.length = 4) (hq : wordsVal b < q) : lossBound b ≤ 2 ^ 193 := by
  match b, hl with
  | [b0, b1, b2, b3], _ =>
    have h3 : b3.toNat ≠ 2 ^ 64 - 1 := by
      intro h
      have hb : q < 2 ^ 192 * (2 ^ 64 - 1) := by unfold q; decide +kernel
      simp only [wordsVal] at hq
      rw [h] at hq
      omega
    simp only [lossBound, if_neg h3]
    split <;> split <;> split <;> norm_num

/-- The rounds of the loop lose no carry, starting with `v`. -/
def StepsExact : List (List UInt64) → ℕ → Prop
  | [], _ => True
  | sk :: sks, v => (∀ k, ¬ CarryLost v (wordsVal sk) k) ∧ StepsExact sks ((v + wordsVal sk) % q)

theorem two_q : q + q < 2 ^ (64 * 4) := by unfold q; decide +kernel

theorem aggregateLoop_exact : ∀ (sks : List (List UInt64)) (ret : List UInt64) (v E : ℕ), ret.length = 4 → wordsVal ret < q → v < q →
    (∀ sk ∈ sks, sk.length = 4 ∧ wordsVal sk < q) → (wordsVal ret + E) % q = v →
    ∃ r, aggregateSecretKeysLoop sks ret = some r ∧ r.length = 4 ∧ wordsVal r < q ∧ ∃ E',
      (wordsVal r + E') % q = (v + (sks.map wordsVal).sum) % q ∧ E' ≤ E + 2 ^ 193 * sks.length ∧
      (E' = 0 ↔ E = 0 ∧ StepsExact sks v)
  | [], ret, v, E, hl, hq, hv, _, he => ⟨ret, rfl, hl, hq, E, by simp [he, Nat.mod_eq_of_lt hv], by simp, by simp [StepsExact]⟩
  | sk :: sks, ret, v, E, hl, hq, hv, h, he => by
    obtain ⟨k1, k2⟩ := h sk (by simp)
    have hs : wordsVal ret + wordsVal sk < 2 ^ (64 * 4) := by have := two_q; omega
    obtain ⟨s, a1, a2, a3, a4⟩ := add_le 4 ret sk hl k1 hs
    have hD : wordsVal ret + wordsVal sk ≤ wordsVal s + 2 ^ 193 := by
      have h1 := addLoop_lower 4 ret sk 0 hl k1 (by decide)
      have h2 := lossBound_key k1 k2
      obtain ⟨g1, g2, g3, -⟩ := addLoop_le 4 ret sk 0 hl.le k1.le (by decide)
      rw [UInt64.toNat_zero, add_zero] at h1 g3
      have hc : (addLoop 4 ret sk 0).2.toNat = 0 := by
        by_contra hne
        have : (addLoop 4 ret sk 0).2.toNat = 1 := by omega
        rw [this] at g3
        omega
      have e : s = (addLoop 4 ret sk 0).1 := by
        have hc' : (addLoop 4 ret sk 0).2 = 0 := UInt64.toNat_inj.1 hc
        rw [Scalar.add] at a1
        simp only [hl, k1, gt_iff_lt, lt_irrefl, if_false] at a1
        rw [hc', if_neg (by decide), Nat.sub_self, List.replicate_zero, List.append_nil] at a1
        exact (Option.some.inj a1).symm
      rw [hc, mul_zero, add_zero, ← e] at h1
      omega
    obtain ⟨c, d, d1, d2, d3⟩ := divQ s a2.ge
    have hq0 : 0 < q := q_prime.pos
    obtain ⟨r, r1, r2, r3, E', e1, e2, e3⟩ := aggregateLoop_exact sks d ((v + wordsVal sk) % q)
      (E + (wordsVal ret + wordsVal sk - wordsVal s)) d2 (by rw [d3]; exact Nat.mod_lt _ hq0) (Nat.mod_lt _ hq0)
      (fun x hx => h x (List.mem_cons_of_mem _ hx)) (by
        rw [d3, Nat.mod_add_mod, ← he, Nat.mod_add_mod]
        congr 1
        omega)
    refine ⟨r, ?_, r2, r3, E', ?_, ?_, ?_⟩
    · rw [aggregateSecretKeysLoop, a1]
      dsimp only
      rw [d1]; exact r1
    · rw [e1, Nat.mod_add_mod, List.map_cons, List.sum_cons, add_assoc]
    · rw [List.length_cons, mul_add, mul_one]
      omega
    · rw [e3, StepsExact]
      constructor
      · rintro ⟨h1, h2⟩
        have hE : E = 0 := by omega
        subst hE
        rw [add_zero, Nat.mod_eq_of_lt hq] at he
        subst he
        exact ⟨rfl, a4.1 (by omega), h2⟩
      · rintro ⟨rfl, h1, h2⟩
        rw [add_zero, Nat.mod_eq_of_lt hq] at he
        subst he
        have := a4.2 h1
        exact ⟨by omega, h2⟩

theorem stepsExact_iff : ∀ (sks : List (List UInt64)) (v : ℕ), v < q → (StepsExact sks v ↔
    ∀ i sk, sks[i]? = some sk → ∀ k, ¬ CarryLost ((v + ((sks.take i).map wordsVal).sum) % q) (wordsVal sk) k)
  | [], v, _ => by simp [StepsExact]
  | sk :: sks, v, hv => by
    rw [StepsExact, stepsExact_iff sks _ (Nat.mod_lt _ q_prime.pos)]
    constructor
    · rintro ⟨h1, h2⟩ i s hi k
      cases i with
      | zero =>
        obtain rfl : sk = s := by simpa using hi
        rw [List.take_zero, List.map_nil, List.sum_nil, add_zero, Nat.mod_eq_of_lt hv]
        exact h1 k
      | succ i =>
        rw [List.take_succ_cons, List.map_cons, List.sum_cons, ← add_assoc, ← Nat.mod_add_mod]
        exact h2 i s (by simpa using hi) k
    · intro h
      constructor
      · intro k
        have := h 0 sk (by simp) k
        rwa [List.take_zero, List.map_nil, List.sum_nil, add_zero, Nat.mod_eq_of_lt hv] at this
      · intro i s hi k
        have := h (i + 1) s (by simpa using hi) k
        rwa [List.take_succ_cons, List.map_cons, List.sum_cons, ← add_assoc, ← Nat.mod_add_mod] at this

theorem aggregate_exact (sks : List (List UInt64)) (hn : sks.length ≤ 2 ^ 61) (h : ∀ sk ∈ sks, sk.length = 4 ∧ wordsVal sk < q) :
    ∃ r, aggregateSecretKeys sks = some r ∧ r.length = 4 ∧ wordsVal r < q ∧
      (wordsVal r = (sks.map wordsVal).sum % q ↔ ∀ i sk, sks[i]? = some sk →
        ∀ k, ¬ CarryLost (((sks.take i).map wordsVal).sum % q) (wordsVal sk) k) := by
  have hz : wordsVal [0, 0, 0, 0] = 0 := by decide
  obtain ⟨r, r1, r2, r3, E', e1, e2, e3⟩ := aggregateLoop_exact sks [0, 0, 0, 0] 0 0 rfl (by rw [hz]; exact q_prime.pos)
    q_prime.pos h (by rw [hz, Nat.zero_mod])
  have hq : 2 ^ 193 * 2 ^ 61 < q := by unfold q; decide +kernel
  have hE : E' < q := by
    have := Nat.mul_le_mul_left (2 ^ 193) hn
    omega
  refine ⟨r, ?_, r2, r3, ?_⟩
  · rw [aggregateSecretKeys]
    split
    · rename_i h0
      rw [List.isEmpty_iff] at h0
      subst h0
      exact r1
    · exact r1
  · have := stepsExact_iff sks 0 q_prime.pos
    simp only [zero_add] at this e1
    rw [← this]
    constructor
    · intro h1
      rw [← h1] at e1
      have h2 : E' = 0 := by
        by_contra hne
        by_cases hlt : wordsVal r + E' < q
        · rw [Nat.mod_eq_of_lt hlt] at e1; omega
        · rw [Nat.mod_eq_sub_mod (by omega), Nat.mod_eq_of_lt (by omega)] at e1; omega
      exact (e3.1 h2).2
    · intro h1
      rw [e3.2 ⟨rfl, h1⟩, add_zero, Nat.mod_eq_of_lt r3] at e1
      exact e1

section
variable {K : Type} [Field K] [FpOps K] [LawfulFp K] [DecidableEq K]
variable {H : List UInt8 → List UInt8} (hH : ∀ m, Fips.IsSha256 m (H m))
include hH

/-- Derivation without hardening: both sides agree exactly when the addition loses no carry. -/
theorem child_exact (sk : List UInt64) (i : UInt32) (hl : sk.length = 4) (hq : wordsVal sk < q) :
    ∃ c d, deriveChildSkUnhardened K sk i = some c ∧ c.length = 4 ∧ wordsVal c < q ∧
      deriveChildG1Unhardened (publicKey sk : G1 K) i = some d ∧
      (d.equal (publicKey c) = true ↔
        ∀ k, ¬ CarryLost (wordsVal sk) (beVal (H (G1.toCompressedBytesBE (publicKey sk : G1 K) ++ Fips.be 4 i.toNat)) % q) k) := by
  have hhl := Hash.length_sha hH (G1.toCompressedBytesBE (publicKey sk : G1 K) ++ Fips.be 4 i.toNat)
  obtain ⟨n, n1, n2, n3⟩ := skFromBytes_mod _ hhl
  obtain ⟨c, c1, c2, c3, c4⟩ := aggregate_exact [sk, n] (by simp) (by
    intro x hx
    rcases List.mem_cons.1 hx with rfl | hx
    · exact ⟨hl, hq⟩
    · rw [List.mem_singleton] at hx
      subst hx
      exact ⟨n2, by rw [n3]; exact Nat.mod_lt _ q_prime.pos⟩)
  obtain ⟨d, d1, d2⟩ := childG1_rep hH (publicKey sk : G1 K) _ (publicKey_rep sk) i
  refine ⟨c, d, ?_, c2, c3, d1, ?_⟩
  · rw [deriveChildSkUnhardened, Hash.hash_sha_one hH, indexBytes_eq, n1, Option.bind_some, c1]
  · rw [Jac.equal_iff d2 (publicKey_rep c), ← add_smul, eq_comm, smul_gen1_eq_iff, Nat.mod_eq_of_lt c3]
    have e : (wordsVal sk + beVal (H (G1.toCompressedBytesBE (publicKey sk : G1 K) ++ Fips.be 4 i.toNat))) % q =
        (([sk, n] : List (List UInt64)).map wordsVal).sum % q := by
      rw [List.map_cons, List.map_cons, List.map_nil, List.sum_cons, List.sum_cons, List.sum_nil, add_zero, n3, Nat.add_mod_mod]
    rw [e, c4, ← n3]
    constructor
    · intro h k
      have := h 1 n (by simp) k
      rwa [List.take_succ_cons, List.take_zero, List.map_cons, List.map_nil, List.sum_cons, List.sum_nil, add_zero,
        Nat.mod_eq_of_lt hq] at this
    · intro h j s hj k
      match j with
      | 0 =>
        rw [List.take_zero, List.map_nil, List.sum_nil, Nat.zero_mod]
        rintro ⟨-, h2⟩
        rw [Nat.zero_mod, zero_add] at h2
        exact absurd h2 (not_le.2 (Nat.mod_lt _ (by positivity)))
      | 1 =>
        obtain rfl : n = s := by simpa using hj
        rw [List.take_succ_cons, List.take_zero, List.map_cons, List.map_nil, List.sum_cons, List.sum_nil, add_zero,
          Nat.mod_eq_of_lt hq]
        exact h k
      | j + 2 => simp at hj

end

end Bls.Keys
