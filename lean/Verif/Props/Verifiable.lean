import Verif.Proof.Threshold
import Verif.Proof.PairAny
import Verif.Props.Signatures

/-!
# C92: shares of a key can be checked (Feldman's scheme)

The dealer publishes points `C k`; the owner of the share `s` at `x` compares the weighted sum of these points with the factors
`x ^ k` with the public key of the share. `Shamir.IsShare`, `Shamir.weight`: `Spec/Threshold.lean`.
-/

namespace Bls.Props
open Bls Sig Pairing Polynomial

attribute [local irreducible] p q hEff2

variable {adx : Bool} {n : ℕ}

/-- What the owner of a share computes: `weightedSum(C, w).equal(public_key(s))`.
Calls: `g1::weightedSum` (src/g.cpp:472), `g1::equal` (src/g.cpp:253), `public_key` (src/signatures.cpp:438). -/
def shareAccepted (C : Fin n → G1 (FpV adx)) (w : Fin n → List UInt64) (s : List UInt64) : Prop :=
  (Jac.weightedSum (List.ofFn C) (List.ofFn w)).equal (Keys.publicKey s) = true

theorem accepted_iff {C : Fin n → G1 (FpV adx)} {a : Fin n → ℕ} (hC : ∀ k, (C k).Rep (a k • gen1 (FpV adx)))
    {w : Fin n → List UInt64} (hl : ∀ k, (w k).length = 4) {x : ZMod q} (hw : ∀ k, (wordsVal (w k) : ZMod q) = x ^ (k : ℕ))
    (s : List UInt64) :
    shareAccepted C w s ↔ Shamir.IsShare (∑ k, Polynomial.C (a k : ZMod q) * X ^ (k : ℕ)) x (wordsVal s) := by
  have h := weightedSum1_ofFn hC w hl
  rw [sum_smul_smul (c := ∑ k, wordsVal (w k) * a k) (q_smul_gen1 _) (fun k => wordsVal (w k)) a (by push_cast; rfl)] at h
  rw [shareAccepted, Jac.equal_iff h (Keys.publicKey_rep s), Keys.smul_gen1_eq_iff, ← ZMod.natCast_eq_natCast_iff',
    Shamir.IsShare, eq_comm, Polynomial.eval_finsetSum]
  push_cast
  rw [show (∑ k, (wordsVal (w k) : ZMod q) * (a k : ZMod q)) = ∑ k, eval x (Polynomial.C (a k : ZMod q) * X ^ (k : ℕ)) from
    Finset.sum_congr rfl fun k _ => by rw [hw, eval_mul, eval_C, eval_pow, eval_X, mul_comm]]

/-- C92: with the public keys of the coefficients, the test accepts exactly the share of the polynomial at `x`. -/
theorem C92_share (a : Fin n → List UInt64) (x : ZMod q) (w : Fin n → List UInt64) (hl : ∀ k, (w k).length = 4)
    (hw : ∀ k, (wordsVal (w k) : ZMod q) = x ^ (k : ℕ)) (s : List UInt64) :
    shareAccepted (adx := adx) (fun k => Keys.publicKey (a k)) w s ↔
      Shamir.IsShare (∑ k, Polynomial.C (wordsVal (a k) : ZMod q) * X ^ (k : ℕ)) x (wordsVal s) :=
  accepted_iff (fun k => Keys.publicKey_rep (a k)) hl hw s

/-- C92: the dealer need not be trusted. Whatever `n` points of the subgroup were published, any `n` owners of accepted shares at
different places hold together the key of the first point `C 0`: the combination of their shares has this public key, and the
combination of their signatures on a message is accepted under it. -/
theorem C92_dealer [NeZero n] (C : Fin n → G1 (FpV adx)) (hC : ∀ k, Member1 (C k)) (x : Fin n → ZMod q)
    (hx : Function.Injective x) (w : Fin n → Fin n → List UInt64) (hl : ∀ i k, (w i k).length = 4)
    (hw : ∀ i k, (wordsVal (w i k) : ZMod q) = x i ^ (k : ℕ)) (s : Fin n → List UInt64)
    (hs : ∀ i, shareAccepted C (w i) (s i)) (u : Fin n → List UInt64) (hu : ∀ i, (u i).length = 4)
    (huw : ∀ i, (wordsVal (u i) : ZMod q) = Shamir.weight x i) (c : List UInt64)
    (hc : wordsVal c % q = (∑ i, wordsVal (u i) * wordsVal (s i)) % q) :
    (Keys.publicKey c).equal (C 0) = true ∧
    ∀ (m : List UInt8) (t : Fin n → G2 (FpV adx)), (∀ i, sign (s i) m = some (t i)) →
      verify (C 0) m (Jac.weightedSum (List.ofFn t) (List.ofFn u)) = some true := by
  choose a ha hr using fun k => member1.1 (hC k)
  have hc' : (wordsVal c : ZMod q) = ∑ i, (wordsVal (u i) : ZMod q) * wordsVal (s i) := by
    rw [(ZMod.natCast_eq_natCast_iff' _ _ q).2 hc]; push_cast; rfl
  set f : (ZMod q)[X] := ∑ k : Fin n, Polynomial.C (a k : ZMod q) * X ^ (k : ℕ) with hf
  have hd : f.degree < n := by
    rw [hf]
    refine lt_of_le_of_lt (Polynomial.degree_sum_le _ _) ((Finset.sup_lt_iff (WithBot.bot_lt_coe n)).2 fun k _ => ?_)
    exact lt_of_le_of_lt (Polynomial.degree_C_mul_X_pow_le _ _) (Nat.cast_lt.2 k.2)
  have h0 : f.eval 0 = a 0 := by
    rw [hf, Polynomial.eval_finsetSum, Finset.sum_eq_single 0]
    · simp
    · intro k _ hk
      have : (k : ℕ) ≠ 0 := fun h => hk (Fin.ext (by simpa using h))
      simp [this]
    · simp
  have hsh : ∀ i, (wordsVal (s i) : ZMod q) = f.eval (x i) := fun i => (accepted_iff hr (hl i) (hw i) (s i)).1 (hs i)
  have hca : (wordsVal c : ZMod q) = a 0 := by
    rw [hc', ← h0, shares_sum f hd x hx]
    exact Finset.sum_congr rfl fun i _ => by rw [huw i, hsh i]
  have hk : wordsVal c • gen1 (FpV adx) = a 0 • gen1 (FpV adx) := smul_congr (q_smul_gen1 _) hca
  refine ⟨(Jac.equal_iff (Keys.publicKey_rep c) (hr 0)).2 hk, fun m t ht => ?_⟩
  cases e : (fromMessage m ciphersuiteId : Option (G2 (FpV adx))) with
  | none => have := ht 0; rw [sign, e] at this; exact absurd this (by simp)
  | some h =>
    obtain ⟨P, r, o⟩ := fromMessage_some id_length.1 e
    refine (verify_true_iff _ _ _).2 ⟨h, P, a 0, e, r, o, ha 0, hr 0, ?_⟩
    rw [← smul_congr o hca]
    exact combine_rep u s hu hc' e r o ht

theorem two_aux {G : Type*} [AddCommGroup G] (g t : G) : 1 • (g + t) + 1 • (g + -t) = 2 • g := by abel

theorem five_aux {G : Type*} [AddCommGroup G] (g t : G) : 1 • (g + t) + 4 • (g + -t) = 5 • g - 3 • t := by abel

/-- C92: the subgroup test on the published points is needed. There are two points of the curve for which the owners at 1 and 4
accept the shares 2 and 5, but the combination of these shares is 1, and the first point is not its public key. -/
theorem C92_needs_subgroup : ∃ C : Fin 2 → G1 (FpV adx), (∀ k, (C k).isOnCurve FpC.B = true) ∧
    shareAccepted C ![[1, 0, 0, 0], [1, 0, 0, 0]] [2, 0, 0, 0] ∧ shareAccepted C ![[1, 0, 0, 0], [4, 0, 0, 0]] [5, 0, 0, 0] ∧
    (∑ i, Shamir.weight ![(1 : ZMod q), 4] i * ![2, 5] i = 1) ∧ (Keys.publicKey [1, 0, 0, 0]).equal (C 0) = false := by
  have hn : (curve (4 : FpV adx)).Nonsingular 0 2 := (goodCurve1 (FpV adx)).nonsingular (by ring)
  obtain ⟨t, ht⟩ := Jac.exists_rep (WeierstrassCurve.Affine.Point.some 0 2 hn)
  have h3 : 3 • WeierstrassCurve.Affine.Point.some 0 2 hn = 0 := XZero.three (P := .some 0 2 hn) rfl
  have hne : WeierstrassCurve.Affine.Point.some 0 2 hn ≠ 0 := WeierstrassCurve.Affine.Point.some_ne_zero hn
  generalize WeierstrassCurve.Affine.Point.some 0 2 hn = T at ht h3 hne
  have g := G1.one_rep (K := FpV adx)
  have r0 := Jac.add_rep (goodCurve1 (FpV adx)) g ht
  have r1 := Jac.add_rep (goodCurve1 (FpV adx)) g (Jac.neg_rep ht)
  have hr : ∀ k, ((![G1.one.add t, G1.one.add t.negate] : Fin 2 → G1 (FpV adx)) k).Rep
      ((![gen1 _ + T, gen1 _ + -T] : Fin 2 → E1 (FpV adx)) k) := by
    intro k; fin_cases k
    · exact r0
    · exact r1
  have key : ∀ (a b s : List UInt64), a.length = 4 → b.length = 4 →
      wordsVal a • (gen1 _ + T) + wordsVal b • (gen1 _ + -T) = wordsVal s • gen1 (FpV adx) →
      shareAccepted ![G1.one.add t, G1.one.add t.negate] ![a, b] s := by
    intro a b s ha hb e
    have h := weightedSum1_ofFn hr ![a, b] (by intro k; fin_cases k <;> assumption)
    rw [shareAccepted, Jac.equal_iff h (Keys.publicKey_rep s), Fin.sum_univ_two]
    exact e
  have v1 : wordsVal [1, 0, 0, 0] = 1 := by decide +kernel
  have v2 : wordsVal [2, 0, 0, 0] = 2 := by decide +kernel
  have v4 : wordsVal [4, 0, 0, 0] = 4 := by decide +kernel
  have v5 : wordsVal [5, 0, 0, 0] = 5 := by decide +kernel
  have n3 : (3 : ZMod q) ≠ 0 := by
    have : ((3 : ℕ) : ZMod q) ≠ 0 := by rw [Ne, ZMod.natCast_eq_zero_iff]; decide +kernel
    exact this
  refine ⟨![G1.one.add t, G1.one.add t.negate], fun k => G1.onCurve_iff.2 ⟨_, hr k⟩, key _ _ _ rfl rfl ?_,
    key _ _ _ rfl rfl ?_, ?_, ?_⟩
  · rw [v1, v2]; exact two_aux _ _
  · rw [v1, v4, v5]
    rw [five_aux, h3, sub_zero]
  · rw [Fin.sum_univ_two, Shamir.weight, Shamir.weight, show (Finset.univ.erase (0 : Fin 2)) = {1} by decide,
      show (Finset.univ.erase (1 : Fin 2)) = {0} by decide, Finset.prod_singleton, Finset.prod_singleton]
    show (4 : ZMod q) / (4 - 1) * 2 + 1 / (1 - 4) * 5 = 1
    rw [show (4 : ZMod q) - 1 = 3 by norm_num, show (1 : ZMod q) - 4 = -3 by norm_num]
    field_simp
    norm_num
  · rw [← Bool.not_eq_true]
    show ¬ (Keys.publicKey [1, 0, 0, 0]).equal (G1.one.add t) = true
    rw [Jac.equal_iff (Keys.publicKey_rep _) r0, v1, one_smul]
    exact fun e => hne (add_eq_left.1 e.symm)

/-- The polynomial `7 + 5 X`: the share 12 at 1 is accepted with its commitments, and 13 is not. -/
example : shareAccepted (adx := adx) (n := 2) (fun k => Keys.publicKey (![[7, 0, 0, 0], [5, 0, 0, 0]] k))
      (fun _ => [1, 0, 0, 0]) [12, 0, 0, 0] ∧
    ¬ shareAccepted (adx := adx) (n := 2) (fun k => Keys.publicKey (![[7, 0, 0, 0], [5, 0, 0, 0]] k))
      (fun _ => [1, 0, 0, 0]) [13, 0, 0, 0] := by
  have v1 : wordsVal [1, 0, 0, 0] = 1 := by decide +kernel
  have hw : ∀ k : Fin 2, (wordsVal [1, 0, 0, 0] : ZMod q) = (1 : ZMod q) ^ (k : ℕ) := fun k => by rw [v1]; simp
  have h : ∀ s, Shamir.IsShare (∑ k : Fin 2, Polynomial.C (wordsVal (![[7, 0, 0, 0], [5, 0, 0, 0]] k) : ZMod q) * X ^ (k : ℕ)) 1
      (wordsVal s) ↔ wordsVal s % q = 12 % q := by
    intro s
    rw [Shamir.IsShare, Fin.sum_univ_two, ← ZMod.natCast_eq_natCast_iff', eval_add, eval_mul, eval_mul, eval_C, eval_C, eval_pow,
      eval_pow, eval_X, one_pow, one_pow, mul_one, mul_one]
    show _ = ((wordsVal [7, 0, 0, 0] : ℕ) : ZMod q) + ((wordsVal [5, 0, 0, 0] : ℕ) : ZMod q) ↔ _
    rw [← Nat.cast_add, show wordsVal [7, 0, 0, 0] + wordsVal [5, 0, 0, 0] = 12 by decide +kernel]
  refine ⟨(C92_share _ 1 _ (fun _ => rfl) hw _).2 ((h _).2 (by decide +kernel)), fun e => ?_⟩
  exact absurd ((h _).1 ((C92_share _ 1 _ (fun _ => rfl) hw _).1 e)) (by decide +kernel)

/-- The hypotheses of `C92_dealer` for the same shares (at 1 and 2, with the factors 2 and -1; see `Props/Threshold.lean`). -/
example : (∀ k : Fin 2, Member1 (Keys.publicKey (![[7, 0, 0, 0], [5, 0, 0, 0]] k) : G1 (FpV adx))) ∧
    wordsVal [7, 0, 0, 0] % q = (∑ i, wordsVal (![[2, 0, 0, 0],
      [0xffffffff00000000, 0x53bda402fffe5bfe, 0x3339d80809a1d805, 0x73eda753299d7d48]] i) *
      wordsVal (![[12, 0, 0, 0], [17, 0, 0, 0]] i)) % q := by
  refine ⟨fun k => member1.2 ⟨wordsVal (![[7, 0, 0, 0], [5, 0, 0, 0]] k) % q, Nat.mod_lt _ q_prime.pos, ?_⟩, by rw [Fin.sum_univ_two]; decide +kernel⟩
  rw [Keys.smul_gen1_mod]
  exact Keys.publicKey_rep _

end Bls.Props
