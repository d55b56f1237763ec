import Verif.Spec.Commitment
import Verif.Proof.Threshold
import Verif.Proof.PairAny
import Verif.Props.Product
import Mathlib.Algebra.Polynomial.Roots
import Mathlib.Algebra.Polynomial.Div

/-!
# C106: commitments to polynomials (the scheme of Kate, Zaverucha and Goldberg)

With the points `S k = τ ^ k G` of the first group and `T = τ H` of the second one, `g1::weightedSum` of the points with the
coefficients of a polynomial is the commitment, and the claim that the value at `x` is `y` is tested with one product of two pairings
(`C90_opening`). `Kzg.poly`, `Kzg.HasValue`, `Kzg.IsQuotient`: `Spec/Commitment.lean`.
-/

namespace Bls.Props
open Bls Sig Pairing Polynomial

attribute [local irreducible] p q eps pairVal

variable {adx : Bool} {σ : Type} {n : ℕ}

/-- The points published for the secret `τ`. -/
def IsSetup (τ : ZMod q) (S : Fin n → G1 (FpV adx)) (T : G2 (FpV adx)) : Prop :=
  (∀ k : Fin n, ∃ a : ℕ, (a : ZMod q) = τ ^ (k : ℕ) ∧ (S k).Rep (a • gen1 (FpV adx))) ∧ ∃ a : ℕ, (a : ZMod q) = τ ∧ T.Rep (a • gen2 (FpV adx))

/-- The commitment: `g1::weightedSum(S, f)`.
Calls: src/g.cpp:472. -/
def commit (S : Fin n → G1 (FpV adx)) (f : Fin n → List UInt64) : G1 (FpV adx) := Jac.weightedSum (List.ofFn S) (List.ofFn f)

/-- The test that the value at `x` is `y` with the witness `W`: `add_pair` twice, `calculate` and a comparison with one.
Calls: `add_pair`, `calculate` (src/pairing.cpp:180-200), `g1::subtract` (src/g.cpp:441), `g2::subtract` (src/g.cpp:1162). -/
def opens (T : G2 (FpV adx)) (C : G1 (FpV adx)) (x y : List UInt64) (W : G1 (FpV adx)) (cb : Option (σ → σ)) (s : σ) : Prop :=
  (calculate (added [(C.subtract ((G1.one : G1 (FpV adx)).scale y), (G2.one : G2 (FpV adx)).negate),
    (W, T.subtract ((G2.one : G2 (FpV adx)).scale x))]) cb s).map Prod.fst = some 1

variable (cb : Option (σ → σ)) (s : σ)

theorem opens_iff {c w τ : ℕ} {C W : G1 (FpV adx)} {T : G2 (FpV adx)} (hC : C.Rep (c • gen1 (FpV adx)))
    (hW : W.Rep (w • gen1 (FpV adx))) (hT : T.Rep (τ • gen2 (FpV adx))) (x y : List UInt64) :
    opens T C x y W cb s ↔ (c : ZMod q) - wordsVal y = w * ((τ : ZMod q) - wordsVal x) := by
  rw [opens, C90_opening hC hW hT x y rfl rfl, ← ZMod.intCast_eq_intCast_iff]
  push_cast
  rfl

theorem neg_multiple {G : Type*} [AddCommGroup G] {P : G} (o : q • P = 0) (n : ℕ) : -(n • P) = ((q - 1) * n) • P := by
  rw [neg_eq_iff_add_eq_zero, ← add_nsmul]
  have : n + (q - 1) * n = n * q := by
    obtain ⟨k, hk⟩ : ∃ k, q = k + 1 := ⟨q - 1, (Nat.sub_add_cancel q_prime.pos).symm⟩
    rw [hk, Nat.add_sub_cancel]; ring
  rw [this, mul_nsmul', o, nsmul_zero]

theorem cast_pred : ((q - 1 : ℕ) : ZMod q) = -1 := by
  rw [Nat.cast_sub q_prime.one_le, ZMod.natCast_self, Nat.cast_one, zero_sub]

theorem commit_rep {τ : ZMod q} {S : Fin n → G1 (FpV adx)} {T : G2 (FpV adx)} (h : IsSetup τ S T) (f : Fin n → List UInt64)
    (hf : ∀ k, (f k).length = 4) :
    ∃ c : ℕ, (c : ZMod q) = (Kzg.poly fun k => wordsVal (f k)).eval τ ∧ (commit S f).Rep (c • gen1 (FpV adx)) := by
  choose a ha hr using h.1
  have h := weightedSum1_ofFn hr f hf
  rw [sum_smul_smul (c := ∑ k, wordsVal (f k) * a k) (q_smul_gen1 _) (fun k => wordsVal (f k)) a (by push_cast; rfl)] at h
  refine ⟨_, ?_, h⟩
  rw [Kzg.poly, Polynomial.eval_finsetSum]
  push_cast
  exact Finset.sum_congr rfl fun k _ => by rw [ha, eval_mul, eval_C, eval_pow, eval_X]

/-- C106: with a witness that is itself a commitment, the test compares the two sides of `f - y = (X - x) h` at the secret. -/
theorem C106_test {τ : ZMod q} {S : Fin n → G1 (FpV adx)} {T : G2 (FpV adx)} (hS : IsSetup τ S T) (f h : Fin n → List UInt64)
    (hf : ∀ k, (f k).length = 4) (hh : ∀ k, (h k).length = 4) (x y : List UInt64) :
    opens T (commit S f) x y (commit S h) cb s ↔
      (Kzg.poly fun k => wordsVal (f k)).eval τ - wordsVal y =
        (τ - wordsVal x) * (Kzg.poly fun k => wordsVal (h k)).eval τ := by
  obtain ⟨c, hc, rc⟩ := commit_rep hS f hf
  obtain ⟨w, hw, rw'⟩ := commit_rep hS h hh
  obtain ⟨a, ha, ra⟩ := hS.2
  rw [opens_iff cb s rc rw' ra, hc, hw, ha, mul_comm]

/-- C106: a true value is accepted with the commitment to the quotient. -/
theorem C106_complete {τ : ZMod q} {S : Fin n → G1 (FpV adx)} {T : G2 (FpV adx)} (hS : IsSetup τ S T) (f h : Fin n → List UInt64)
    (hf : ∀ k, (f k).length = 4) (hh : ∀ k, (h k).length = 4) (x y : List UInt64)
    (hq : Kzg.IsQuotient (fun k => wordsVal (f k)) (wordsVal x) (wordsVal y) fun k => wordsVal (h k)) :
    opens T (commit S f) x y (commit S h) cb s := by
  rw [C106_test cb s hS f h hf hh]
  have := congrArg (Polynomial.eval τ) hq
  rwa [eval_sub, eval_C, eval_mul, eval_sub, eval_X, eval_C] at this

theorem poly_degree (a : Fin n → ℕ) : (Kzg.poly a).degree < n :=
  lt_of_le_of_lt (Polynomial.degree_sum_le _ _) ((Finset.sup_lt_iff (WithBot.bot_lt_coe n)).2 fun k _ =>
    lt_of_le_of_lt (Polynomial.degree_C_mul_X_pow_le _ _) (Nat.cast_lt.2 k.2))

theorem poly_of_degree (g : (ZMod q)[X]) (hg : g.degree < n) : ∃ h : Fin n → List UInt64, (∀ k, (h k).length = 4) ∧
    Kzg.poly (fun k => wordsVal (h k)) = g := by
  choose h hl hv using fun k : Fin n => Keys.exists_words (k := (g.coeff k).val) (ZMod.val_lt _)
  refine ⟨h, hl, ?_⟩
  have e := (Polynomial.sum_fin (fun i a => Polynomial.C a * X ^ i) (by intro i; simp) hg).trans g.sum_C_mul_X_pow_eq
  rw [Kzg.poly, ← e]
  exact Finset.sum_congr rfl fun k _ => by rw [hv, ZMod.natCast_zmod_val]

/-- C106: the quotient has coefficients exactly if the value is true. -/
theorem C106_quotient (f : Fin n → ℕ) (x y : ℕ) :
    Kzg.HasValue f x y ↔ ∃ h : Fin n → List UInt64, (∀ k, (h k).length = 4) ∧ Kzg.IsQuotient f x y fun k => wordsVal (h k) := by
  constructor
  · intro hy
    obtain ⟨h, hl, hp⟩ := poly_of_degree (n := n) (Kzg.poly f /ₘ (X - Polynomial.C (x : ZMod q)))
      (lt_of_le_of_lt (Polynomial.degree_divByMonic_le _ _) (poly_degree f))
    refine ⟨h, hl, ?_⟩
    rw [Kzg.IsQuotient, hp, ← hy, Polynomial.X_sub_C_mul_divByMonic_eq_sub_modByMonic, Polynomial.modByMonic_X_sub_C_eq_C_eval]
  · rintro ⟨h, -, hq⟩
    have := congrArg (Polynomial.eval (x : ZMod q)) hq
    rw [eval_sub, eval_C, eval_mul, eval_sub, eval_X, eval_C, sub_self, zero_mul, sub_eq_zero] at this
    exact this

/-- C106: a false value with a witness that is a combination of the published points is accepted for at most `n` of the `q`
secrets, whatever the combination. -/
theorem C106_sound (S : ZMod q → Fin n → G1 (FpV adx)) (T : ZMod q → G2 (FpV adx)) (hS : ∀ τ, IsSetup τ (S τ) (T τ))
    (f h : Fin n → List UInt64) (hf : ∀ k, (f k).length = 4) (hh : ∀ k, (h k).length = 4) (x y : List UInt64)
    (hy : ¬ Kzg.HasValue (fun k => wordsVal (f k)) (wordsVal x) (wordsVal y)) :
    {τ | opens (T τ) (commit (S τ) f) x y (commit (S τ) h) cb s}.ncard ≤ n := by
  set g : (ZMod q)[X] := Kzg.poly (fun k => wordsVal (f k)) - Polynomial.C (wordsVal y : ZMod q) -
    (X - Polynomial.C (wordsVal x : ZMod q)) * Kzg.poly (fun k => wordsVal (h k)) with hg
  have hne : g ≠ 0 := by
    intro h0
    have := congrArg (Polynomial.eval (wordsVal x : ZMod q)) h0
    rw [hg, eval_sub, eval_sub, eval_C, eval_mul, eval_sub, eval_X, eval_C, sub_self, zero_mul, sub_zero, eval_zero, sub_eq_zero] at this
    exact hy this
  have hroot : {τ | opens (T τ) (commit (S τ) f) x y (commit (S τ) h) cb s} ⊆ (g.roots.toFinset : Set (ZMod q)) := by
    intro τ hτ
    have := (C106_test cb s (hS τ) f h hf hh x y).1 hτ
    rw [Finset.mem_coe, Multiset.mem_toFinset, mem_roots hne, IsRoot, hg, eval_sub, eval_sub, eval_C, eval_mul, eval_sub, eval_X,
      eval_C, sub_eq_zero]
    exact this
  refine (Set.ncard_le_ncard hroot (Finset.finite_toSet _)).trans ?_
  rw [Set.ncard_coe_finset]
  refine (Multiset.toFinset_card_le _).trans ((Polynomial.card_roots' g).trans ?_)
  rcases Nat.eq_zero_or_pos n with rfl | hn
  · rw [hg]
    simp [Kzg.poly]
  · have e : ∀ a : Fin n → ℕ, (Kzg.poly a).natDegree ≤ n - 1 := fun a => by
      by_cases h0 : Kzg.poly a = 0
      · rw [h0, Polynomial.natDegree_zero]; omega
      · have := (Polynomial.natDegree_lt_iff_degree_lt h0).2 (poly_degree a)
        omega
    rw [hg]
    refine (Polynomial.natDegree_sub_le _ _).trans (max_le ((Polynomial.natDegree_sub_le _ _).trans (max_le ?_ ?_)) ?_)
    · exact (e _).trans (by omega)
    · rw [Polynomial.natDegree_C]; omega
    · refine Polynomial.natDegree_mul_le.trans ?_
      rw [Polynomial.natDegree_X_sub_C]
      have := e fun k => wordsVal (h k)
      omega

/-- C106: the test alone does not tell the value. If `T` is not `x H`, then for every commitment and every `y` there is a point of
the subgroup with which `y` is accepted, and only one. -/
theorem C106_witness (T : G2 (FpV adx)) (hT : Member2 T) (x : List UInt64) (hx : T.equal ((G2.one : G2 (FpV adx)).scale x) = false)
    (C : G1 (FpV adx)) (hC : Member1 C) (y : List UInt64) :
    (∃ W, Member1 W ∧ opens T C x y W cb s) ∧
    ∀ W W', Member1 W → Member1 W' → opens T C x y W cb s → opens T C x y W' cb s → W.equal W' = true := by
  obtain ⟨c, -, rc⟩ := member1.1 hC
  obtain ⟨Q, rt, oQ⟩ := valid2 hT
  obtain ⟨t, -, rfl⟩ := exists_lt_smul (q_smul_gen2 (FpV adx)) (mem_gen2 _ oQ)
  have hne : (t : ZMod q) - wordsVal x ≠ 0 := by
    intro h
    rw [sub_eq_zero] at h
    have := (Jac.equal_iff rt (Jac.scale_rep (goodCurve2 (FpV adx)) G2.one_rep x)).2 (smul_congr (q_smul_gen2 _) h)
    rw [hx] at this
    exact Bool.false_ne_true this
  constructor
  · set w : ZMod q := ((c : ZMod q) - wordsVal y) / ((t : ZMod q) - wordsVal x) with hw
    obtain ⟨W, rW⟩ := Jac.exists_rep (w.val • gen1 (FpV adx))
    refine ⟨W, member1.2 ⟨_, ZMod.val_lt _, rW⟩, (opens_iff cb s rc rW rt x y).2 ?_⟩
    rw [ZMod.natCast_zmod_val, hw, div_mul_cancel₀ _ hne]
  · intro W W' hW hW' h h'
    obtain ⟨w, -, rW⟩ := member1.1 hW
    obtain ⟨w', -, rW'⟩ := member1.1 hW'
    have e := ((opens_iff cb s rc rW rt x y).1 h).symm.trans ((opens_iff cb s rc rW' rt x y).1 h')
    exact (Jac.equal_iff rW rW').2 (smul_congr (q_smul_gen1 _) (mul_right_cancel₀ hne e))

/-- C106: two values for one commitment at one place give away a point that is hard to compute: the difference of the witnesses
divided by the difference of the values is `1 / (τ - x) G`, so that its pairing with `T - x H` is the pairing of the generators. -/
theorem C106_two_values (T : G2 (FpV adx)) (hT : Member2 T) (C W W' : G1 (FpV adx)) (hC : Member1 C) (hW : Member1 W)
    (hW' : Member1 W') (x y y' : List UInt64) (h : opens T C x y W cb s) (h' : opens T C x y' W' cb s) (e : List UInt64)
    (he : (wordsVal e : ZMod q) * ((wordsVal y' : ZMod q) - wordsVal y) = 1) :
    (calculate (added [((W.subtract W').scale e, T.subtract ((G2.one : G2 (FpV adx)).scale x))]) cb s).map Prod.fst =
      (calculate (added [((G1.one : G1 (FpV adx)), (G2.one : G2 (FpV adx)))]) cb s).map Prod.fst := by
  obtain ⟨c, -, rc⟩ := member1.1 hC
  obtain ⟨w, -, rW⟩ := member1.1 hW
  obtain ⟨w', -, rW'⟩ := member1.1 hW'
  obtain ⟨Q, rt, oQ⟩ := valid2 hT
  obtain ⟨t, -, rfl⟩ := exists_lt_smul (q_smul_gen2 (FpV adx)) (mem_gen2 _ oQ)
  have r1 := Jac.scale_rep (goodCurve1 (FpV adx)) (Jac.sub_rep (goodCurve1 (FpV adx)) rW rW') e
  rw [sub_eq_add_neg, neg_multiple (q_smul_gen1 _), ← add_nsmul, ← mul_nsmul'] at r1
  have r2 := Jac.sub_rep (goodCurve2 (FpV adx)) rt (Jac.scale_rep (goodCurve2 (FpV adx)) G2.one_rep x)
  rw [sub_eq_add_neg, neg_multiple (q_smul_gen2 _), ← add_nsmul] at r2
  have g1 := one_nsmul (gen1 (FpV adx)) ▸ G1.one_rep (K := FpV adx)
  have g2 := one_nsmul (gen2 (FpV adx)) ▸ G2.one_rep (K := FpV adx)
  refine (C90_equal (es := [(_, _)]) (es' := [(1, 1)]) (.cons ⟨r1, r2⟩ .nil) (.cons ⟨g1, g2⟩ .nil) cb s).2 ?_
  rw [List.map_cons, List.map_nil, List.map_cons, List.map_nil, List.sum_singleton, List.sum_singleton, ← ZMod.natCast_eq_natCast_iff]
  have a := (opens_iff cb s rc rW rt x y).1 h
  have b := (opens_iff cb s rc rW' rt x y').1 h'
  push_cast
  rw [cast_pred]
  linear_combination he - (wordsVal e : ZMod q) * a + (wordsVal e : ZMod q) * b

/-- C106: the published points can be tested: with the first one equal to the generator, the products of the pairs `(S (k + 1), -H)`
and `(S k, T)` are one exactly if the points are the powers of some secret. -/
theorem C106_setup (S : Fin (n + 1) → G1 (FpV adx)) (T : G2 (FpV adx)) (hS : ∀ k, Member1 (S k)) (hT : Member2 T) :
    ((S 0).equal G1.one = true ∧ ∀ k : Fin n, (calculate (added [(S k.succ, (G2.one : G2 (FpV adx)).negate), (S k.castSucc, T)])
      cb s).map Prod.fst = some 1) ↔ ∃ τ, IsSetup τ S T := by
  choose a ha ra using fun k => member1.1 (hS k)
  obtain ⟨Q, rt, oQ⟩ := valid2 hT
  obtain ⟨t, -, rfl⟩ := exists_lt_smul (q_smul_gen2 (FpV adx)) (mem_gen2 _ oQ)
  have inj1 : ∀ {m m' : ℕ}, m • gen1 (FpV adx) = m' • gen1 (FpV adx) → (m : ZMod q) = m' := fun h =>
    (ZMod.natCast_eq_natCast_iff' _ _ q).2 ((Keys.smul_gen1_eq_iff _ _).1 h)
  have inj2 : ∀ {m m' : ℕ}, m • gen2 (FpV adx) = m' • gen2 (FpV adx) → (m : ZMod q) = m' := fun {m m'} h => by
    have h' := nsmul_inj_mod (x := gen2 (FpV adx)) (n := m) (m := m')
    rw [Keys.order_gen2] at h'
    exact (ZMod.natCast_eq_natCast_iff' _ _ q).2 (h'.1 h)
  have g1 := one_nsmul (gen1 (FpV adx)) ▸ G1.one_rep (K := FpV adx)
  have r2 : ((G2.one : G2 (FpV adx)).negate).Rep ((q - 1) • gen2 (FpV adx)) := by
    have := Jac.neg_rep (G2.one_rep (K := FpV adx))
    rw [← one_nsmul (gen2 (FpV adx)), neg_multiple (q_smul_gen2 _), mul_one] at this
    exact this
  have step : ∀ k : Fin n, (calculate (added [(S k.succ, (G2.one : G2 (FpV adx)).negate), (S k.castSucc, T)]) cb s).map Prod.fst = some 1 ↔
      (a k.succ : ZMod q) = a k.castSucc * t := fun k => by
    rw [C90_one (es := [(a k.succ, q - 1), (a k.castSucc, t)]) (.cons ⟨ra _, r2⟩ (.cons ⟨ra _, rt⟩ .nil)), List.map_cons, List.map_cons,
      List.map_nil, List.sum_cons, List.sum_singleton, ← ZMod.natCast_eq_zero_iff]
    push_cast
    rw [cast_pred]
    constructor <;> intro h <;> linear_combination -h
  have zero : (S 0).equal G1.one = true ↔ (a 0 : ZMod q) = 1 := by
    rw [Jac.equal_iff (ra 0) g1]
    constructor
    · intro h; rw [inj1 h, Nat.cast_one]
    · intro h; exact smul_congr (q_smul_gen1 _) (by rw [h, Nat.cast_one])
  rw [zero]
  simp only [step]
  constructor
  · rintro ⟨h0, h⟩
    refine ⟨t, fun k => ⟨a k, ?_, ra k⟩, t, rfl, rt⟩
    induction k using Fin.induction with
    | zero => rw [h0, Fin.val_zero, pow_zero]
    | succ k ih => rw [h, ih, Fin.val_castSucc, Fin.val_succ, pow_succ]
  · rintro ⟨τ, h1, b, hb, rb⟩
    have ht : (t : ZMod q) = τ := by rw [inj2 (rt.unique rb), hb]
    have hk : ∀ k, (a k : ZMod q) = τ ^ (k : ℕ) := fun k => by
      obtain ⟨m, hm, rm⟩ := h1 k
      rw [inj1 ((ra k).unique rm), hm]
    refine ⟨by rw [hk, Fin.val_zero, pow_zero], fun k => by rw [hk, hk, ht, Fin.val_castSucc, Fin.val_succ, pow_succ]⟩

/-- C106: the uniqueness of the witness needs the subgroup test: with every accepted witness of the subgroup another point of the
curve is accepted, which is not in the subgroup. -/
theorem C106_outside (T : G2 (FpV adx)) (hT : Member2 T) (C W : G1 (FpV adx)) (hC : C.isOnCurve FpC.B = true) (hW : Member1 W)
    (x y : List UInt64) (h : opens T C x y W cb s) :
    ∃ W', W'.isOnCurve FpC.B = true ∧ W'.inCorrectSubgroup = false ∧ W'.equal W = false ∧ opens T C x y W' cb s := by
  have hn : (curve (4 : FpV adx)).Nonsingular 0 2 := (goodCurve1 (FpV adx)).nonsingular (by ring)
  obtain ⟨t, ht⟩ := Jac.exists_rep (WeierstrassCurve.Affine.Point.some 0 2 hn)
  have hx : XZero (WeierstrassCurve.Affine.Point.some 0 2 hn) := rfl
  generalize WeierstrassCurve.Affine.Point.some 0 2 hn = R at ht hx
  obtain ⟨P, hP⟩ := G1.onCurve_iff.1 hC
  obtain ⟨V, hV, oV⟩ := valid1 hW
  obtain ⟨Q, rt, oQ⟩ := valid2 hT
  have hs := Jac.add_rep (goodCurve1 (FpV adx)) hV ht
  have r1 := Jac.sub_rep (goodCurve1 (FpV adx)) hP (Jac.scale_rep (goodCurve1 (FpV adx)) G1.one_rep y)
  have r2 := Jac.neg_rep (G2.one_rep (K := FpV adx))
  have r3 := Jac.sub_rep (goodCurve2 (FpV adx)) rt (Jac.scale_rep (goodCurve2 (FpV adx)) G2.one_rep x)
  have o3 : q • (Q - wordsVal x • gen2 (FpV adx)) = 0 := by
    rw [nsmul_sub, oQ, smul_smul_zero (q_smul_gen2 _), sub_zero]
  refine ⟨W.add t, G1.onCurve_iff.2 ⟨_, hs⟩, ?_, ?_, ?_⟩
  · rw [← Bool.not_eq_true, G1.inCorrectSubgroup_iff hs, nsmul_add, oV, zero_add]
    intro e
    have := gcd_smul e hx.three
    rw [show Nat.gcd q 3 = 1 by decide +kernel, one_smul] at this
    exact hx.ne this
  · rw [← Bool.not_eq_true, Jac.equal_iff hs hV]
    exact fun e => hx.ne (add_eq_left.1 e)
  · rw [opens, calculate_eq, Option.map_some, added, List.foldl_cons, List.foldl_cons, List.foldl_nil] at h ⊢
    rw [addPair_eps hs r3, eps_add_any _ _ o3, eps_xzero hx o3, mul_one]
    rwa [addPair_eps hV r3] at h

/-- The points for the secret 5 and polynomials of degree at most 2. -/
def setupCase : Fin 3 → G1 (FpV adx) :=
  ![(G1.one : G1 (FpV adx)).scale [1], (G1.one : G1 (FpV adx)).scale [5], (G1.one : G1 (FpV adx)).scale [25]]

theorem setup_case : IsSetup (adx := adx) 5 setupCase ((G2.one : G2 (FpV adx)).scale [5]) := by
  have s1 := fun n => Jac.scale_rep (goodCurve1 (FpV adx)) (G1.one_rep (K := FpV adx)) [n]
  refine ⟨fun k => ?_, 5, by norm_num, Jac.scale_rep (goodCurve2 (FpV adx)) (G2.one_rep (K := FpV adx)) [5]⟩
  fin_cases k
  · exact ⟨1, by norm_num, s1 1⟩
  · exact ⟨5, by norm_num, s1 5⟩
  · exact ⟨25, by norm_num, s1 25⟩

theorem quotient_case : Kzg.IsQuotient (fun k => wordsVal (![[0, 0, 0, 0], [0, 0, 0, 0], [1, 0, 0, 0]] k : List UInt64)) (wordsVal [3])
    (wordsVal [9]) (fun k => wordsVal (![[3, 0, 0, 0], [1, 0, 0, 0], [0, 0, 0, 0]] k : List UInt64)) := by
  have v : wordsVal [0, 0, 0, 0] = 0 ∧ wordsVal [1, 0, 0, 0] = 1 ∧ wordsVal [3, 0, 0, 0] = 3 ∧ wordsVal [3] = 3 ∧ wordsVal [9] = 9 := by
    decide +kernel
  rw [Kzg.IsQuotient, Kzg.poly, Kzg.poly, Fin.sum_univ_three, Fin.sum_univ_three]
  show Polynomial.C ((wordsVal [0, 0, 0, 0] : ℕ) : ZMod q) * X ^ 0 + Polynomial.C ((wordsVal [0, 0, 0, 0] : ℕ) : ZMod q) * X ^ 1 +
    Polynomial.C ((wordsVal [1, 0, 0, 0] : ℕ) : ZMod q) * X ^ 2 - _ = _ *
    (Polynomial.C ((wordsVal [3, 0, 0, 0] : ℕ) : ZMod q) * X ^ 0 + Polynomial.C ((wordsVal [1, 0, 0, 0] : ℕ) : ZMod q) * X ^ 1 +
    Polynomial.C ((wordsVal [0, 0, 0, 0] : ℕ) : ZMod q) * X ^ 2)
  obtain ⟨v0, v1, v3, w3, w9⟩ := v
  rw [v0, v1, v3, w3, w9]
  push_cast
  rw [Polynomial.C_0, Polynomial.C_1, show (Polynomial.C (9 : ZMod q)) = Polynomial.C 3 * Polynomial.C 3 by
    rw [← Polynomial.C_mul]; norm_num]
  ring

/-- `X²` has the value 9 at 3, with the quotient `X + 3`. -/
example : opens (adx := adx) ((G2.one : G2 (FpV adx)).scale [5])
    (commit setupCase ![[0, 0, 0, 0], [0, 0, 0, 0], [1, 0, 0, 0]]) [3] [9]
    (commit setupCase ![[3, 0, 0, 0], [1, 0, 0, 0], [0, 0, 0, 0]]) cb s :=
  C106_complete cb s setup_case _ _ (by decide) (by decide) _ _ quotient_case

/-- The value 10 is false, so that `C106_sound` applies; there are points for every secret. -/
example : ¬ Kzg.HasValue (fun k => wordsVal (![[0, 0, 0, 0], [0, 0, 0, 0], [1, 0, 0, 0]] k : List UInt64)) (wordsVal [3]) (wordsVal [10]) ∧
    ∃ (S : ZMod q → Fin n → G1 (FpV adx)) (T : ZMod q → G2 (FpV adx)), ∀ τ, IsSetup τ (S τ) (T τ) := by
  constructor
  · intro h
    have h' := (C106_quotient _ _ _).2 ⟨_, by decide, quotient_case⟩
    rw [Kzg.HasValue] at h h'
    have := h.symm.trans h'
    rw [ZMod.natCast_eq_natCast_iff'] at this
    exact absurd this (by decide +kernel)
  · choose S hS using fun (τ : ZMod q) (k : Fin n) => Jac.exists_rep ((τ ^ (k : ℕ)).val • gen1 (FpV adx))
    choose T hT using fun τ : ZMod q => Jac.exists_rep (τ.val • gen2 (FpV adx))
    exact ⟨S, T, fun τ => ⟨fun k => ⟨_, ZMod.natCast_zmod_val _, hS τ k⟩, _, ZMod.natCast_zmod_val _, hT τ⟩⟩

theorem scale_case : Member2 ((G2.one : G2 (FpV adx)).scale [5]) ∧
    ((G2.one : G2 (FpV adx)).scale [5]).equal ((G2.one : G2 (FpV adx)).scale [3]) = false ∧
    Member1 ((G1.one : G1 (FpV adx)).scale [25]) := by
  have s2 := fun n => Jac.scale_rep (goodCurve2 (FpV adx)) (G2.one_rep (K := FpV adx)) [n]
  refine ⟨member2.2 ⟨_, s2 5, smul_smul_zero (q_smul_gen2 _) _⟩, ?_, member1.2 ⟨25, by decide +kernel,
    Jac.scale_rep (goodCurve1 (FpV adx)) (G1.one_rep (K := FpV adx)) [25]⟩⟩
  rw [Bool.eq_false_iff, Ne, Jac.equal_iff (s2 5) (s2 3)]
  have h := nsmul_inj_mod (x := gen2 (FpV adx)) (n := wordsVal [5]) (m := wordsVal [3])
  rw [Keys.order_gen2] at h
  rw [h]
  decide +kernel

/-- The value 10 at 3 is accepted for the same commitment with a suitable point, and the two witnesses give `1 / (5 - 3) G`. -/
example : ∃ W W' : G1 (FpV adx), opens ((G2.one : G2 (FpV adx)).scale [5]) ((G1.one : G1 (FpV adx)).scale [25]) [3] [9] W cb s ∧
    opens ((G2.one : G2 (FpV adx)).scale [5]) ((G1.one : G1 (FpV adx)).scale [25]) [3] [10] W' cb s ∧
    (calculate (added [((W.subtract W').scale [1], ((G2.one : G2 (FpV adx)).scale [5]).subtract ((G2.one : G2 (FpV adx)).scale [3]))])
      cb s).map Prod.fst = (calculate (added [((G1.one : G1 (FpV adx)), (G2.one : G2 (FpV adx)))]) cb s).map Prod.fst := by
  obtain ⟨h2, hx, h1⟩ := scale_case (adx := adx)
  obtain ⟨W, m, h⟩ := (C106_witness cb s _ h2 _ hx _ h1 [9]).1
  obtain ⟨W', m', h'⟩ := (C106_witness cb s _ h2 _ hx _ h1 [10]).1
  refine ⟨W, W', h, h', C106_two_values cb s _ h2 _ W W' h1 m m' _ _ _ h h' _ ?_⟩
  have v : wordsVal [1] = 1 ∧ wordsVal [9] = 9 ∧ wordsVal [10] = 10 := by decide +kernel
  rw [v.1, v.2.1, v.2.2]
  norm_num

/-- A witness outside the subgroup for the value 9. -/
example : ∃ W' : G1 (FpV adx), W'.inCorrectSubgroup = false ∧
    opens ((G2.one : G2 (FpV adx)).scale [5]) ((G1.one : G1 (FpV adx)).scale [25]) [3] [9] W' cb s := by
  obtain ⟨h2, hx, h1⟩ := scale_case (adx := adx)
  obtain ⟨W, m, h⟩ := (C106_witness cb s _ h2 _ hx _ h1 [9]).1
  obtain ⟨W', -, h3, -, h4⟩ := C106_outside cb s _ h2 _ W h1.1 m _ _ h
  exact ⟨W', h3, h4⟩

/-- The points of `setup_case` pass the test of `C106_setup`; with the point 24 in place of 25 they do not. -/
example : (calculate (added [((G1.one : G1 (FpV adx)).scale [25], (G2.one : G2 (FpV adx)).negate),
      ((G1.one : G1 (FpV adx)).scale [5], (G2.one : G2 (FpV adx)).scale [5])]) cb s).map Prod.fst = some 1 ∧
    ¬ ∃ τ, IsSetup τ ![(G1.one : G1 (FpV adx)).scale [1], (G1.one : G1 (FpV adx)).scale [5], (G1.one : G1 (FpV adx)).scale [24]]
      ((G2.one : G2 (FpV adx)).scale [5]) := by
  have s1 := fun n => Jac.scale_rep (goodCurve1 (FpV adx)) (G1.one_rep (K := FpV adx)) [n]
  have inj1 : ∀ {m m' : ℕ}, m • gen1 (FpV adx) = m' • gen1 (FpV adx) → (m : ZMod q) = m' := fun h =>
    (ZMod.natCast_eq_natCast_iff' _ _ q).2 ((Keys.smul_gen1_eq_iff _ _).1 h)
  have hm : ∀ k, Member1 ((setupCase (adx := adx)) k) := fun k => by
    fin_cases k
    · exact member1.2 ⟨1, by decide +kernel, s1 1⟩
    · exact member1.2 ⟨5, by decide +kernel, s1 5⟩
    · exact member1.2 ⟨25, by decide +kernel, s1 25⟩
  refine ⟨((C106_setup cb s setupCase _ hm scale_case.1).2 ⟨5, setup_case⟩).2 1, ?_⟩
  rintro ⟨τ, h, -⟩
  obtain ⟨a, ha, ra⟩ := h 1
  obtain ⟨b, hb, rb⟩ := h 2
  have ea := inj1 (ra.unique (s1 5))
  have eb := inj1 (rb.unique (s1 24))
  have v : wordsVal [5] = 5 ∧ wordsVal [24] = 24 := by decide +kernel
  rw [ha, v.1] at ea
  rw [hb, v.2] at eb
  have e : (((5 * 5 : ℕ)) : ZMod q) = (24 : ℕ) := by
    rw [Nat.cast_mul, ← ea, ← eb]
    show τ ^ 1 * τ ^ 1 = τ ^ 2
    ring
  rw [ZMod.natCast_eq_natCast_iff'] at e
  exact absurd e (by decide +kernel)

end Bls.Props
