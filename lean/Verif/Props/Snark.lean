import Verif.Proof.Threshold
import Verif.Props.Commitment

/-!
# C107: proofs that are checked with four pairings (the scheme of Groth)

The calls of a verifier: `g1::weightedSum` of the points of the verification key with the public inputs, `add_pair` four times,
`calculate` and a comparison with one. The library has no function for it.
-/

namespace Bls.Props
open Bls Sig Pairing

attribute [local irreducible] p q eps pairVal

variable {adx : Bool} {σ : Type} {n : ℕ}

/-- The key of the verifier. -/
structure SnarkKey (adx : Bool) (n : ℕ) where
  alpha : G1 (FpV adx)
  beta : G2 (FpV adx)
  gamma : G2 (FpV adx)
  delta : G2 (FpV adx)
  first : G1 (FpV adx)
  inputs : Fin n → G1 (FpV adx)

/-- The points of the key have passed the tests for membership. -/
structure SnarkKey.Valid (k : SnarkKey adx n) : Prop where
  alpha : Member1 k.alpha
  beta : Member2 k.beta
  gamma : Member2 k.gamma
  delta : Member2 k.delta
  first : Member1 k.first
  inputs : ∀ i, Member1 (k.inputs i)

/-- The test of the proof `(A, B, C)` for the public inputs `x`.
Calls: `g1::weightedSum` (src/g.cpp:472), `g1::negate` (src/g.cpp:432), `add_pair`, `calculate` (src/pairing.cpp:180-200). -/
def proofAccepted (k : SnarkKey adx n) (x : Fin n → List UInt64) (A : G1 (FpV adx)) (B : G2 (FpV adx)) (C : G1 (FpV adx))
    (cb : Option (σ → σ)) (s : σ) : Prop :=
  (calculate (added [(A.negate, B), (k.alpha, k.beta),
    (k.first.add (Jac.weightedSum (List.ofFn k.inputs) (List.ofFn x)), k.gamma), (C, k.delta)]) cb s).map Prod.fst = some 1

variable (cb : Option (σ → σ)) (s : σ)

/-- The points of the key and of a proof are these multiples of the generators. -/
structure SnarkExps (k : SnarkKey adx n) (A : G1 (FpV adx)) (B : G2 (FpV adx)) (C : G1 (FpV adx)) (α β γ δ l : ℕ) (ls : Fin n → ℕ)
    (a b c : ℕ) : Prop where
  alpha : k.alpha.Rep (α • gen1 (FpV adx))
  beta : k.beta.Rep (β • gen2 (FpV adx))
  gamma : k.gamma.Rep (γ • gen2 (FpV adx))
  delta : k.delta.Rep (δ • gen2 (FpV adx))
  first : k.first.Rep (l • gen1 (FpV adx))
  inputs : ∀ i, (k.inputs i).Rep (ls i • gen1 (FpV adx))
  A : A.Rep (a • gen1 (FpV adx))
  B : B.Rep (b • gen2 (FpV adx))
  C : C.Rep (c • gen1 (FpV adx))

/-- C107: the test is the equation `a b = α β + (l + ∑ x_i l_i) γ + c δ` modulo the group order. -/
theorem C107_equation {k : SnarkKey adx n} {A C : G1 (FpV adx)} {B : G2 (FpV adx)} {α β γ δ l : ℕ} {ls : Fin n → ℕ} {a b c : ℕ}
    (h : SnarkExps k A B C α β γ δ l ls a b c) (x : Fin n → List UInt64) (hx : ∀ i, (x i).length = 4) :
    proofAccepted k x A B C cb s ↔
      (a : ZMod q) * b = α * β + (l + ∑ i, (wordsVal (x i) : ZMod q) * ls i) * γ + c * δ := by
  have rs := weightedSum1_ofFn h.inputs x hx
  rw [sum_smul_smul (c := ∑ i, wordsVal (x i) * ls i) (q_smul_gen1 _) (fun i => wordsVal (x i)) ls (by push_cast; rfl)] at rs
  have r3 := Jac.add_rep (goodCurve1 (FpV adx)) h.first rs
  rw [← add_nsmul] at r3
  have r1 := Jac.neg_rep h.A
  rw [neg_multiple (q_smul_gen1 _)] at r1
  rw [proofAccepted, C90_one (es := [(_, _), (_, _), (_, _), (_, _)])
    (.cons ⟨r1, h.B⟩ (.cons ⟨h.alpha, h.beta⟩ (.cons ⟨r3, h.gamma⟩ (.cons ⟨h.C, h.delta⟩ .nil)))), List.map_cons, List.map_cons,
    List.map_cons, List.map_cons, List.map_nil, List.sum_cons, List.sum_cons, List.sum_cons, List.sum_singleton,
    ← ZMod.natCast_eq_zero_iff]
  push_cast
  rw [cast_pred]
  constructor <;> intro e <;> linear_combination -e

theorem exists_multiple1 {a : G1 (FpV adx)} (h : Member1 a) : ∃ m : ℕ, a.Rep (m • gen1 (FpV adx)) :=
  (member1.1 h).imp fun _ h => h.2

theorem exists_multiple2 {a : G2 (FpV adx)} (h : Member2 a) : ∃ m : ℕ, a.Rep (m • gen2 (FpV adx)) := by
  obtain ⟨Q, rt, oQ⟩ := valid2 h
  obtain ⟨t, -, rfl⟩ := exists_lt_smul (q_smul_gen2 (FpV adx)) (mem_gen2 _ oQ)
  exact ⟨t, rt⟩

theorem exists_exps {k : SnarkKey adx n} (hk : k.Valid) {A C : G1 (FpV adx)} {B : G2 (FpV adx)} (hA : Member1 A) (hB : Member2 B)
    (hC : Member1 C) : ∃ α β γ δ l ls a b c, SnarkExps k A B C α β γ δ l ls a b c := by
  obtain ⟨α, h1⟩ := exists_multiple1 hk.alpha
  obtain ⟨β, h2⟩ := exists_multiple2 hk.beta
  obtain ⟨γ, h3⟩ := exists_multiple2 hk.gamma
  obtain ⟨δ, h4⟩ := exists_multiple2 hk.delta
  obtain ⟨l, h5⟩ := exists_multiple1 hk.first
  choose ls h6 using fun i => exists_multiple1 (hk.inputs i)
  obtain ⟨a, h7⟩ := exists_multiple1 hA
  obtain ⟨b, h8⟩ := exists_multiple2 hB
  obtain ⟨c, h9⟩ := exists_multiple1 hC
  exact ⟨α, β, γ, δ, l, ls, a, b, c, h1, h2, h3, h4, h5, h6, h7, h8, h9⟩

/-- C107: the inputs count modulo the group order only. A verifier that takes the four words of an input as they are accepts a proof
for `x` also for `x + q`. -/
theorem C107_inputs (k : SnarkKey adx n) (hk : k.Valid) {A C : G1 (FpV adx)} {B : G2 (FpV adx)} (hA : Member1 A) (hB : Member2 B)
    (hC : Member1 C) (x x' : Fin n → List UInt64) (hx : ∀ i, (x i).length = 4) (hx' : ∀ i, (x' i).length = 4)
    (he : ∀ i, wordsVal (x i) % q = wordsVal (x' i) % q) :
    proofAccepted k x A B C cb s ↔ proofAccepted k x' A B C cb s := by
  obtain ⟨α, β, γ, δ, l, ls, a, b, c, h⟩ := exists_exps hk hA hB hC
  rw [C107_equation cb s h x hx, C107_equation cb s h x' hx',
    Finset.sum_congr rfl fun i _ => by rw [(ZMod.natCast_eq_natCast_iff' _ _ q).2 (he i)]]

/-- C107: but not less: a proof that is accepted for two inputs that differ at one place modulo the order exists only if the point
of the key for this place or `γ` is infinity. -/
theorem C107_inputs_differ (k : SnarkKey adx n) (hk : k.Valid) {A C : G1 (FpV adx)} {B : G2 (FpV adx)} (hA : Member1 A)
    (hB : Member2 B) (hC : Member1 C) (x x' : Fin n → List UInt64) (hx : ∀ i, (x i).length = 4) (hx' : ∀ i, (x' i).length = 4)
    (j : Fin n) (he : ∀ i, i ≠ j → x i = x' i) (hj : wordsVal (x j) % q ≠ wordsVal (x' j) % q)
    (h1 : proofAccepted k x A B C cb s) (h2 : proofAccepted k x' A B C cb s) :
    (k.inputs j).isZero = true ∨ k.gamma.isZero = true := by
  obtain ⟨α, β, γ, δ, l, ls, a, b, c, h⟩ := exists_exps hk hA hB hC
  have e := ((C107_equation cb s h x hx).1 h1).symm.trans ((C107_equation cb s h x' hx').1 h2)
  rw [← Finset.add_sum_erase _ _ (Finset.mem_univ j),
    ← Finset.add_sum_erase (a := j) _ (fun i => (wordsVal (x' i) : ZMod q) * ls i) (Finset.mem_univ j),
    Finset.sum_congr rfl fun i hi => by rw [he i (Finset.ne_of_mem_erase hi)]] at e
  have e' : ((wordsVal (x j) : ZMod q) - wordsVal (x' j)) * ((ls j : ZMod q) * γ) = 0 := by linear_combination e
  rcases mul_eq_zero.1 e' with h0 | h0
  · exact absurd ((ZMod.natCast_eq_natCast_iff' _ _ q).1 (sub_eq_zero.1 h0)) hj
  · rcases mul_eq_zero.1 h0 with h0 | h0
    · left
      rw [(h.inputs j).isZero_iff, smul_congr (b := 0) (q_smul_gen1 _) (by rw [h0, Nat.cast_zero]), zero_nsmul]
    · right
      rw [h.gamma.isZero_iff, smul_congr (b := 0) (q_smul_gen2 _) (by rw [h0, Nat.cast_zero]), zero_nsmul]

/-- C107: for all inputs, all `A` and all `B` there is exactly one `C` in the subgroup with which the test accepts, unless `δ` is
infinity. -/
theorem C107_last (k : SnarkKey adx n) (hk : k.Valid) (hd : k.delta.isZero = false) {A : G1 (FpV adx)} {B : G2 (FpV adx)}
    (hA : Member1 A) (hB : Member2 B) (x : Fin n → List UInt64) (hx : ∀ i, (x i).length = 4) :
    (∃ C, Member1 C ∧ proofAccepted k x A B C cb s) ∧
    ∀ C C', Member1 C → Member1 C' → proofAccepted k x A B C cb s → proofAccepted k x A B C' cb s → C.equal C' = true := by
  have hz : Member1 (G1.one : G1 (FpV adx)) := valid_one.1
  obtain ⟨α, β, γ, δ, l, ls, a, b, _, h⟩ := exists_exps hk hA hB hz
  have hne : (δ : ZMod q) ≠ 0 := by
    intro h0
    have := h.delta.isZero_iff.2 (by rw [smul_congr (b := 0) (q_smul_gen2 _) (by rw [h0, Nat.cast_zero]), zero_nsmul])
    rw [hd] at this
    exact Bool.false_ne_true this
  constructor
  · set c : ZMod q := ((a : ZMod q) * b - (α * β + (l + ∑ i, (wordsVal (x i) : ZMod q) * ls i) * γ)) / δ with hc
    obtain ⟨C, rC⟩ := Jac.exists_rep (c.val • gen1 (FpV adx))
    refine ⟨C, member1.2 ⟨_, ZMod.val_lt _, rC⟩, (C107_equation cb s { h with C := rC } x hx).2 ?_⟩
    rw [ZMod.natCast_zmod_val, hc, div_mul_cancel₀ _ hne]
    ring
  · intro C C' hC hC' h1 h2
    obtain ⟨c, rC⟩ := exists_multiple1 hC
    obtain ⟨c', rC'⟩ := exists_multiple1 hC'
    have e := ((C107_equation cb s { h with C := rC } x hx).1 h1).symm.trans ((C107_equation cb s { h with C := rC' } x hx).1 h2)
    exact (Jac.equal_iff rC rC').2 (smul_congr (q_smul_gen1 _) (mul_right_cancel₀ hne (add_left_cancel e)))

/-- C107: proofs can be changed without the witness: `(r A, 1/r B, C)` and `(A, B + r δ, C + r A)` are accepted if `(A, B, C)` is. -/
theorem C107_malleable (k : SnarkKey adx n) (hk : k.Valid) {A C : G1 (FpV adx)} {B : G2 (FpV adx)} (hA : Member1 A) (hB : Member2 B)
    (hC : Member1 C) (x : Fin n → List UInt64) (hx : ∀ i, (x i).length = 4) (h : proofAccepted k x A B C cb s) (r r' : List UInt64) :
    (wordsVal r * wordsVal r' % q = 1 → proofAccepted k x (A.scale r) (B.scale r') C cb s) ∧
    proofAccepted k x A (B.add (k.delta.scale r)) (C.add (A.scale r)) cb s := by
  obtain ⟨α, β, γ, δ, l, ls, a, b, c, e⟩ := exists_exps hk hA hB hC
  have h := (C107_equation cb s e x hx).1 h
  have ra := Jac.scale_rep (goodCurve1 (FpV adx)) e.A r
  have rb := Jac.scale_rep (goodCurve2 (FpV adx)) e.B r'
  have rd := Jac.scale_rep (goodCurve2 (FpV adx)) e.delta r
  rw [← mul_nsmul'] at ra rb rd
  constructor
  · intro hr
    refine (C107_equation cb s { e with A := ra, B := rb } x hx).2 ?_
    have hr' : (wordsVal r : ZMod q) * wordsVal r' = 1 := by
      have h1 : wordsVal r * wordsVal r' % q = 1 % q := by rw [hr, Nat.mod_eq_of_lt q_prime.one_lt]
      have := (ZMod.natCast_eq_natCast_iff' _ _ q).2 h1
      push_cast at this
      exact this
    push_cast
    linear_combination (a : ZMod q) * b * hr' + h
  · have r2 := Jac.add_rep (goodCurve2 (FpV adx)) e.B rd
    have r3 := Jac.add_rep (goodCurve1 (FpV adx)) e.C ra
    rw [← add_nsmul] at r2 r3
    refine (C107_equation cb s { e with B := r2, C := r3 } x hx).2 ?_
    push_cast
    linear_combination h

/-- C107: without the test of `C` for membership, a point outside the subgroup is accepted in its place. -/
theorem C107_outside (k : SnarkKey adx n) (hk : k.Valid) {A C : G1 (FpV adx)} {B : G2 (FpV adx)} (hA : Member1 A) (hB : Member2 B)
    (hC : Member1 C) (x : Fin n → List UInt64) (hx : ∀ i, (x i).length = 4) (h : proofAccepted k x A B C cb s) :
    ∃ C', C'.isOnCurve FpC.B = true ∧ C'.inCorrectSubgroup = false ∧ C'.equal C = false ∧ proofAccepted k x A B C' cb s := by
  have hn : (curve (4 : FpV adx)).Nonsingular 0 2 := (goodCurve1 (FpV adx)).nonsingular (by ring)
  obtain ⟨t, ht⟩ := Jac.exists_rep (WeierstrassCurve.Affine.Point.some 0 2 hn)
  have hz : XZero (WeierstrassCurve.Affine.Point.some 0 2 hn) := rfl
  generalize WeierstrassCurve.Affine.Point.some 0 2 hn = R at ht hz
  obtain ⟨V, hV, oV⟩ := valid1 hC
  obtain ⟨Q, rt, oQ⟩ := valid2 hk.delta
  have hs := Jac.add_rep (goodCurve1 (FpV adx)) hV ht
  refine ⟨C.add t, G1.onCurve_iff.2 ⟨_, hs⟩, ?_, ?_, ?_⟩
  · rw [← Bool.not_eq_true, G1.inCorrectSubgroup_iff hs, nsmul_add, oV, zero_add]
    intro e
    have := gcd_smul e hz.three
    rw [show Nat.gcd q 3 = 1 by decide +kernel, one_smul] at this
    exact hz.ne this
  · rw [← Bool.not_eq_true, Jac.equal_iff hs hV]
    exact fun e => hz.ne (add_eq_left.1 e)
  · rw [proofAccepted, calculate_eq, Option.map_some, added, List.foldl_cons, List.foldl_cons, List.foldl_cons, List.foldl_cons,
      List.foldl_nil] at h ⊢
    rw [addPair_eps hs rt, eps_add_any _ _ oQ, eps_xzero hz oQ, mul_one]
    rwa [addPair_eps hV rt] at h

/-- A key with `α = 2`, `β = 3`, `γ = 5`, `δ = 7`, the first point 1 and one input with the point 4. -/
def snarkCase : SnarkKey adx 1 :=
  ⟨(G1.one : G1 (FpV adx)).scale [2], (G2.one : G2 (FpV adx)).scale [3], (G2.one : G2 (FpV adx)).scale [5],
    (G2.one : G2 (FpV adx)).scale [7], (G1.one : G1 (FpV adx)).scale [1], fun _ => (G1.one : G1 (FpV adx)).scale [4]⟩

theorem snark_exps : SnarkExps (adx := adx) snarkCase (G1.one.scale [10]) (G2.one.scale [17]) (G1.one.scale [17]) 2 3 5 7 1 (fun _ => 4) 10 17 17 := by
  have s1 := fun n => Jac.scale_rep (goodCurve1 (FpV adx)) (G1.one_rep (K := FpV adx)) [n]
  have s2 := fun n => Jac.scale_rep (goodCurve2 (FpV adx)) (G2.one_rep (K := FpV adx)) [n]
  exact ⟨s1 2, s2 3, s2 5, s2 7, s1 1, fun _ => s1 4, s1 10, s2 17, s1 17⟩

theorem snark_valid : (snarkCase (adx := adx)).Valid ∧ Member1 ((G1.one : G1 (FpV adx)).scale [10]) ∧
    Member2 ((G2.one : G2 (FpV adx)).scale [17]) ∧ Member1 ((G1.one : G1 (FpV adx)).scale [17]) := by
  have s1 := fun n => Jac.scale_rep (goodCurve1 (FpV adx)) (G1.one_rep (K := FpV adx)) [n]
  have s2 := fun n => Jac.scale_rep (goodCurve2 (FpV adx)) (G2.one_rep (K := FpV adx)) [n]
  have m1 : ∀ n, Member1 ((G1.one : G1 (FpV adx)).scale [n]) := fun n =>
    member1.2 ⟨wordsVal [n] % q, Nat.mod_lt _ q_prime.pos, by rw [Keys.smul_gen1_mod]; exact s1 n⟩
  have m2 : ∀ n, Member2 ((G2.one : G2 (FpV adx)).scale [n]) := fun n => member2.2 ⟨_, s2 n, smul_smul_zero (q_smul_gen2 _) _⟩
  exact ⟨⟨m1 2, m2 3, m2 5, m2 7, m1 1, fun _ => m1 4⟩, m1 10, m2 17, m1 17⟩

/-- `10 · 17 = 2 · 3 + (1 + 4 x) · 5 + 17 · 7` for the input `x = 2`: accepted for 2, rejected for 3. -/
theorem snark_case : proofAccepted (adx := adx) snarkCase (fun _ => [2, 0, 0, 0]) (G1.one.scale [10]) (G2.one.scale [17]) (G1.one.scale [17]) cb s ∧
    ¬ proofAccepted (adx := adx) snarkCase (fun _ => [3, 0, 0, 0]) (G1.one.scale [10]) (G2.one.scale [17]) (G1.one.scale [17]) cb s := by
  have v : wordsVal [2, 0, 0, 0] = 2 ∧ wordsVal [3, 0, 0, 0] = 3 := by decide +kernel
  rw [C107_equation cb s snark_exps _ (fun _ => rfl), C107_equation cb s snark_exps _ (fun _ => rfl), Fin.sum_univ_one, Fin.sum_univ_one,
    v.1, v.2]
  constructor
  · norm_num
  · intro h
    have h : ((170 : ℕ) : ZMod q) = ((190 : ℕ) : ZMod q) := by
      push_cast at h ⊢
      linear_combination h
    rw [ZMod.natCast_eq_natCast_iff'] at h
    exact absurd h (by decide +kernel)

/-- The same proof is accepted for the input `q + 2`. -/
example : proofAccepted (adx := adx) snarkCase (fun _ => [18446744069414584323, 6034159408538082302, 3691218898639771653, 8353516859464449352])
    (G1.one.scale [10]) (G2.one.scale [17]) (G1.one.scale [17]) cb s :=
  (C107_inputs cb s _ snark_valid.1 snark_valid.2.1 snark_valid.2.2.1 snark_valid.2.2.2 (fun _ => [2, 0, 0, 0]) _ (fun _ => rfl) (fun _ => rfl)
    fun _ => by decide +kernel).1 (snark_case cb s).1

/-- Changed proofs, and a proof with a point outside the subgroup. -/
example : proofAccepted (adx := adx) snarkCase (fun _ => [2, 0, 0, 0]) (G1.one.scale [10])
      ((G2.one.scale [17]).add ((snarkCase (adx := adx)).delta.scale [6])) ((G1.one.scale [17]).add ((G1.one.scale [10]).scale [6])) cb s ∧
    ∃ C', C'.inCorrectSubgroup = false ∧ proofAccepted (adx := adx) snarkCase (fun _ => [2, 0, 0, 0]) (G1.one.scale [10]) (G2.one.scale [17]) C' cb s := by
  obtain ⟨hk, hA, hB, hC⟩ := snark_valid (adx := adx)
  obtain ⟨C', -, h1, -, h2⟩ := C107_outside cb s _ hk hA hB hC _ (fun _ => rfl) (snark_case cb s).1
  exact ⟨(C107_malleable cb s _ hk hA hB hC _ (fun _ => rfl) (snark_case cb s).1 [6] []).2, C', h1, h2⟩

/-- The proof with twice `A` and half of `B`. -/
example : proofAccepted (adx := adx) snarkCase (fun _ => [2, 0, 0, 0]) ((G1.one.scale [10]).scale [2])
    ((G2.one.scale [17]).scale [9223372034707292161, 12240451741123816959, 1845609449319885826, 4176758429732224676]) (G1.one.scale [17]) cb s := by
  obtain ⟨hk, hA, hB, hC⟩ := snark_valid (adx := adx)
  exact (C107_malleable cb s _ hk hA hB hC _ (fun _ => rfl) (snark_case cb s).1 [2] _).1 (by decide +kernel)

/-- The hypotheses of `C107_last`; there is a proof for the input 3 with the same `A` and `B`. -/
example : ∃ C, Member1 C ∧ proofAccepted (adx := adx) snarkCase (fun _ => [3, 0, 0, 0]) (G1.one.scale [10]) (G2.one.scale [17]) C cb s := by
  obtain ⟨hk, hA, hB, -⟩ := snark_valid (adx := adx)
  refine (C107_last cb s _ hk ?_ hA hB _ (fun _ => rfl)).1
  rw [Bool.eq_false_iff, Ne, (snark_exps (adx := adx)).delta.isZero_iff]
  have h := nsmul_inj_mod (x := gen2 (FpV adx)) (n := 7) (m := 0)
  rw [Keys.order_gen2, zero_nsmul] at h
  rw [h]
  decide +kernel

/-- The same key with infinity as the point of the input. -/
def snarkCase0 : SnarkKey adx 1 := { snarkCase with inputs := fun _ => (G1.one : G1 (FpV adx)).scale [0] }

/-- With infinity as the point of the input, the proof `6 · 3 = 2 · 3 + 1 · 5 + 1 · 7` is accepted for the inputs 2 and 3
(`C107_inputs_differ`). -/
example : proofAccepted (adx := adx) snarkCase0 (fun _ => [2, 0, 0, 0])
      (G1.one.scale [6]) (G2.one.scale [3]) (G1.one.scale [1]) cb s ∧
    proofAccepted (adx := adx) snarkCase0 (fun _ => [3, 0, 0, 0])
      (G1.one.scale [6]) (G2.one.scale [3]) (G1.one.scale [1]) cb s := by
  have s1 := fun n => Jac.scale_rep (goodCurve1 (FpV adx)) (G1.one_rep (K := FpV adx)) [n]
  have s2 := fun n => Jac.scale_rep (goodCurve2 (FpV adx)) (G2.one_rep (K := FpV adx)) [n]
  have e := snark_exps (adx := adx)
  have hk : SnarkExps snarkCase0 (G1.one.scale [6]) (G2.one.scale [3])
      (G1.one.scale [1]) 2 3 5 7 1 (fun _ => 0) 6 3 1 :=
    ⟨e.alpha, e.beta, e.gamma, e.delta, e.first, fun _ => s1 0, s1 6, s2 3, s1 1⟩
  rw [C107_equation cb s hk _ (fun _ => rfl), C107_equation cb s hk _ (fun _ => rfl)]
  constructor <;> norm_num

/-- For the key whose points are not infinity no proof at all is accepted for both inputs 2 and 3. -/
example {A C : G1 (FpV adx)} {B : G2 (FpV adx)} (hA : Member1 A) (hB : Member2 B) (hC : Member1 C)
    (h1 : proofAccepted snarkCase (fun _ => [2, 0, 0, 0]) A B C cb s) : ¬ proofAccepted snarkCase (fun _ => [3, 0, 0, 0]) A B C cb s := by
  intro h2
  have e := snark_exps (adx := adx)
  rcases C107_inputs_differ cb s _ snark_valid.1 hA hB hC _ _ (fun _ => rfl) (fun _ => rfl) 0 (fun i hi => absurd (Subsingleton.elim i 0) hi)
    (by decide +kernel) h1 h2 with h | h
  · rw [(e.inputs 0).isZero_iff] at h
    have h' := nsmul_inj_mod (x := gen1 (FpV adx)) (n := 4) (m := 0)
    rw [Keys.order_gen1, zero_nsmul] at h'
    exact absurd (h'.1 h) (by decide +kernel)
  · rw [e.gamma.isZero_iff] at h
    have h' := nsmul_inj_mod (x := gen2 (FpV adx)) (n := 5) (m := 0)
    rw [Keys.order_gen2, zero_nsmul] at h'
    exact absurd (h'.1 h) (by decide +kernel)

end Bls.Props
