import Verif.Props.Bilinear
import Verif.Proof.Target

/-!
# C90: what a product of pairings says
-/

namespace Bls.Props
open Bls Pairing

attribute [local irreducible] p q eps pairVal gtGen

section
variable {K : Type} [Field K] [FpOps K] [LawfulFp K] [DecidableEq K]

theorem foldl_addPair : ∀ (l : List (G1 K × G2 K)) (es : List (ℕ × ℕ)) (v : List (G1 K × G2 K)),
    List.Forall₂ (fun x e => x.1.Rep (e.1 • gen1 K) ∧ x.2.Rep (e.2 • gen2 K)) l es →
    ((l.foldl (fun v x => addPair v x.1 x.2) v).map fun pq => pairVal pq.1 pq.2).prod =
      (v.map fun pq => pairVal pq.1 pq.2).prod * eps (gen1 K) (gen2 K) ^ (es.map fun e => e.1 * e.2).sum
  | [], es, v, h => by
    rw [List.forall₂_nil_left_iff] at h
    subst h
    rw [List.foldl_nil, List.map_nil, List.sum_nil, pow_zero, mul_one]
  | x :: l, es, v, h => by
    rw [List.forall₂_cons_left_iff] at h
    obtain ⟨e, es, ⟨h1, h2⟩, h, rfl⟩ := h
    have o1 := q_smul_gen1 K
    have o2 := q_smul_gen2 K
    rw [List.foldl_cons, foldl_addPair l es _ h, addPair_eps h1 h2, eps_smul_left o1 (smul_smul_zero o2 _), eps_smul_right o1 o2,
      List.map_cons, List.sum_cons, pow_add, ← pow_mul, mul_comm e.2 e.1, mul_assoc]

end

variable {adx : Bool} {σ : Type}

/-- The pairs that a caller has added one after the other.
Calls: `add_pair` (src/pairing.cpp:192-200). -/
def added (l : List (G1 (FpV adx) × G2 (FpV adx))) : List (G1 (FpV adx) × G2 (FpV adx)) :=
  l.foldl (fun v x => addPair v x.1 x.2) []

/-- The points of the pairs are these multiples of the generators. -/
def Multiples (l : List (G1 (FpV adx) × G2 (FpV adx))) (es : List (ℕ × ℕ)) : Prop :=
  List.Forall₂ (fun x e => x.1.Rep (e.1 • gen1 (FpV adx)) ∧ x.2.Rep (e.2 • gen2 (FpV adx))) l es

/-- C90: pairs of points of the subgroups are multiples of the generators. -/
theorem C90_multiples (l : List (G1 (FpV adx) × G2 (FpV adx))) (h : ∀ x ∈ l, Member1 x.1 ∧ Member2 x.2) : ∃ es, Multiples l es := by
  induction l with
  | nil => exact ⟨[], .nil⟩
  | cons x l ih =>
    obtain ⟨es, hes⟩ := ih fun y hy => h y (List.mem_cons_of_mem _ hy)
    obtain ⟨h1, h2⟩ := h x (List.mem_cons_self ..)
    obtain ⟨P, hP, oP⟩ := valid1 h1
    obtain ⟨Q, hQ, oQ⟩ := valid2 h2
    obtain ⟨m, -, rfl⟩ := exists_lt_smul (q_smul_gen1 (FpV adx)) (mem_gen1 _ oP)
    obtain ⟨n, -, rfl⟩ := exists_lt_smul (q_smul_gen2 (FpV adx)) (mem_gen2 _ oQ)
    exact ⟨(m, n) :: es, .cons ⟨hP, hQ⟩ hes⟩

example : ∃ es, Multiples [((G1.one : G1 (FpV adx)), (G2.one : G2 (FpV adx))), (G1.one, G2.one)] es :=
  C90_multiples _ fun x hx => by
    have hx : x = ((G1.one : G1 (FpV adx)), (G2.one : G2 (FpV adx))) := by
      rcases List.mem_cons.1 hx with h | h
      · exact h
      · exact List.mem_singleton.1 h
    subst hx
    exact valid_one

/-- C90: the product of the pairings is the pairing of the generators to the sum of the products of the multiples. -/
theorem C90_value {l : List (G1 (FpV adx) × G2 (FpV adx))} {es : List (ℕ × ℕ)} (h : Multiples l es) (y : Option (σ → σ)) (s : σ) :
    (calculate (added l) y s).map Prod.fst = some (gtGen (fun n => (n : FpV adx)) ^ (es.map fun e => e.1 * e.2).sum) := by
  rw [calculate_eq, Option.map_some, added, foldl_addPair l es [] h, List.map_nil, List.prod_nil, one_mul, eps_gen]

/-- C90: two products of pairings are the same exactly if the sums of products are the same modulo the group order. -/
theorem C90_equal {l l' : List (G1 (FpV adx) × G2 (FpV adx))} {es es' : List (ℕ × ℕ)} (h : Multiples l es) (h' : Multiples l' es')
    (y : Option (σ → σ)) (s : σ) :
    (calculate (added l) y s).map Prod.fst = (calculate (added l') y s).map Prod.fst ↔
      (es.map fun e => e.1 * e.2).sum ≡ (es'.map fun e => e.1 * e.2).sum [MOD q] := by
  rw [C90_value h, C90_value h', Option.some_inj, ← eps_gen]
  have hp := eps_primitive (q_smul_gen1 (FpV adx)) (q_smul_gen2 _) (gen1_ne_zero _) (gen2_ne_zero _)
  rw [pow_eq_pow_mod _ hp.pow_eq_one, pow_eq_pow_mod (es'.map fun e => e.1 * e.2).sum hp.pow_eq_one]
  exact ⟨hp.pow_inj (Nat.mod_lt _ q_prime.pos) (Nat.mod_lt _ q_prime.pos), fun h => by rw [h]⟩

/-- `e(2 G, 3 H) = e(G, 6 H)`. -/
example (y : Option (σ → σ)) (s : σ) :
    (calculate (added [((G1.one : G1 (FpV adx)).scale [2], (G2.one : G2 (FpV adx)).scale [3])]) y s).map Prod.fst =
      (calculate (added [((G1.one : G1 (FpV adx)).scale [1], (G2.one : G2 (FpV adx)).scale [6])]) y s).map Prod.fst := by
  have s1 := fun n => Jac.scale_rep (goodCurve1 (FpV adx)) (G1.one_rep (K := FpV adx)) [n]
  have s2 := fun n => Jac.scale_rep (goodCurve2 (FpV adx)) (G2.one_rep (K := FpV adx)) [n]
  exact (C90_equal (es := [(2, 3)]) (es' := [(1, 6)]) (.cons ⟨s1 2, s2 3⟩ .nil) (.cons ⟨s1 1, s2 6⟩ .nil) y s).2 rfl

/-- C90: the product is one exactly if the sum of products is zero modulo the group order. -/
theorem C90_one {l : List (G1 (FpV adx) × G2 (FpV adx))} {es : List (ℕ × ℕ)} (h : Multiples l es) (y : Option (σ → σ)) (s : σ) :
    (calculate (added l) y s).map Prod.fst = some 1 ↔ q ∣ (es.map fun e => e.1 * e.2).sum := by
  have hp := eps_primitive (q_smul_gen1 (FpV adx)) (q_smul_gen2 _) (gen1_ne_zero _) (gen2_ne_zero _)
  rw [C90_value h, Option.some_inj, ← eps_gen, hp.pow_eq_one_iff_dvd]

/-- C90: the test of an opening of a polynomial commitment. With the secret point `τ` in the second group only as `τ H`, the pairs
`(C - y G, -H)` and `(W, τ H - x H)` multiply to one exactly if `c - y = w (τ - x)` modulo the group order. -/
theorem C90_opening {c w : ℕ} {τ x y' : ℕ} {C W : G1 (FpV adx)} {T : G2 (FpV adx)} (hC : C.Rep (c • gen1 (FpV adx)))
    (hW : W.Rep (w • gen1 (FpV adx))) (hT : T.Rep (τ • gen2 (FpV adx))) (xs ys : List UInt64) (hx : wordsVal xs = x) (hy : wordsVal ys = y')
    (y : Option (σ → σ)) (s : σ) :
    (calculate (added [(C.subtract ((G1.one : G1 (FpV adx)).scale ys), (G2.one : G2 (FpV adx)).negate),
      (W, T.subtract ((G2.one : G2 (FpV adx)).scale xs))]) y s).map Prod.fst = some 1 ↔
      ((c : ℤ) - y') ≡ w * ((τ : ℤ) - x) [ZMOD q] := by
  subst hx hy
  have o1 := q_smul_gen1 (FpV adx)
  have o2 := q_smul_gen2 (FpV adx)
  have hq := q_prime.pos
  -- multiples that are natural numbers
  have e1 : ∀ n : ℕ, -(n • gen1 (FpV adx)) = ((q - 1) * n) • gen1 (FpV adx) := fun n => by
    rw [neg_eq_iff_add_eq_zero, ← add_nsmul]
    have : n + (q - 1) * n = n * q := by
      obtain ⟨k, hk⟩ : ∃ k, q = k + 1 := ⟨q - 1, (Nat.sub_add_cancel hq).symm⟩
      rw [hk, Nat.add_sub_cancel]; ring
    rw [this, mul_nsmul', o1, nsmul_zero]
  have e2 : ∀ n : ℕ, -(n • gen2 (FpV adx)) = ((q - 1) * n) • gen2 (FpV adx) := fun n => by
    rw [neg_eq_iff_add_eq_zero, ← add_nsmul]
    have : n + (q - 1) * n = n * q := by
      obtain ⟨k, hk⟩ : ∃ k, q = k + 1 := ⟨q - 1, (Nat.sub_add_cancel hq).symm⟩
      rw [hk, Nat.add_sub_cancel]; ring
    rw [this, mul_nsmul', o2, nsmul_zero]
  have r1 : (C.subtract ((G1.one : G1 (FpV adx)).scale ys)).Rep ((c + (q - 1) * wordsVal ys) • gen1 (FpV adx)) := by
    have := Jac.sub_rep (goodCurve1 (FpV adx)) hC (Jac.scale_rep (goodCurve1 (FpV adx)) G1.one_rep ys)
    rwa [sub_eq_add_neg, e1, ← add_nsmul] at this
  have r2 : ((G2.one : G2 (FpV adx)).negate).Rep ((q - 1) • gen2 (FpV adx)) := by
    have := Jac.neg_rep (G2.one_rep (K := FpV adx))
    rw [← one_nsmul (gen2 (FpV adx)), e2, mul_one] at this
    exact this
  have r3 : (T.subtract ((G2.one : G2 (FpV adx)).scale xs)).Rep ((τ + (q - 1) * wordsVal xs) • gen2 (FpV adx)) := by
    have := Jac.sub_rep (goodCurve2 (FpV adx)) hT (Jac.scale_rep (goodCurve2 (FpV adx)) G2.one_rep xs)
    rwa [sub_eq_add_neg, e2, ← add_nsmul] at this
  have hm : Multiples [(C.subtract ((G1.one : G1 (FpV adx)).scale ys), (G2.one : G2 (FpV adx)).negate),
      (W, T.subtract ((G2.one : G2 (FpV adx)).scale xs))]
      [(c + (q - 1) * wordsVal ys, q - 1), (w, τ + (q - 1) * wordsVal xs)] := .cons ⟨r1, r2⟩ (.cons ⟨hW, r3⟩ .nil)
  rw [C90_one hm, List.map_cons, List.map_cons, List.map_nil, List.sum_cons, List.sum_cons, List.sum_nil, add_zero]
  obtain ⟨k, hk⟩ : ∃ k, q = k + 1 := ⟨q - 1, (Nat.sub_add_cancel hq).symm⟩
  generalize wordsVal ys = b at *
  generalize wordsVal xs = a at *
  rw [← Int.natCast_dvd_natCast, Int.modEq_iff_dvd, hk, Nat.add_sub_cancel]
  push_cast
  have : ((c : ℤ) + k * b) * k + w * (τ + k * a) = (w * ((τ : ℤ) - a) - (c - b)) + (k + 1) * (c + (k - 1) * b + w * a) := by ring
  rw [this, Int.dvd_add_left (dvd_mul_right _ _)]

/-- The value of a product of two pairings, which is not one. -/
example (y : Option (σ → σ)) (s : σ) :
    (calculate (added [((G1.one : G1 (FpV adx)), (G2.one : G2 (FpV adx)).scale [6]),
      ((G1.one : G1 (FpV adx)).scale [2], (G2.one : G2 (FpV adx)).scale [3])]) y s).map Prod.fst =
      some (gtGen (fun n => (n : FpV adx)) ^ 12) ∧
    (calculate (added [((G1.one : G1 (FpV adx)), (G2.one : G2 (FpV adx)).scale [6]),
      ((G1.one : G1 (FpV adx)).scale [2], (G2.one : G2 (FpV adx)).scale [3])]) y s).map Prod.fst ≠ some 1 := by
  have g1 := one_nsmul (gen1 (FpV adx)) ▸ G1.one_rep (K := FpV adx)
  have s1 := Jac.scale_rep (goodCurve1 (FpV adx)) (G1.one_rep (K := FpV adx)) [2]
  have s2 := fun n => Jac.scale_rep (goodCurve2 (FpV adx)) (G2.one_rep (K := FpV adx)) [n]
  have hm : Multiples [((G1.one : G1 (FpV adx)), (G2.one : G2 (FpV adx)).scale [6]),
      ((G1.one : G1 (FpV adx)).scale [2], (G2.one : G2 (FpV adx)).scale [3])] [(1, 6), (2, 3)] :=
    .cons ⟨g1, s2 6⟩ (.cons ⟨s1, s2 3⟩ .nil)
  refine ⟨C90_value hm y s, ?_⟩
  rw [Ne, C90_one hm]
  change ¬ q ∣ 12
  exact Nat.not_dvd_of_pos_of_lt (by decide) (by unfold q; decide)

/-- The opening of the commitment to `X²` at `x = 3` with `τ = 5`: the value is 9 and the witness is `(25 - 9) / (5 - 3) = 8`. -/
example (y : Option (σ → σ)) (s : σ) :
    (calculate (added [(((G1.one : G1 (FpV adx)).scale [25]).subtract ((G1.one : G1 (FpV adx)).scale [9]), (G2.one : G2 (FpV adx)).negate),
      ((G1.one : G1 (FpV adx)).scale [8], ((G2.one : G2 (FpV adx)).scale [5]).subtract ((G2.one : G2 (FpV adx)).scale [3]))]) y s).map
        Prod.fst = some 1 := by
  have s1 := fun n => Jac.scale_rep (goodCurve1 (FpV adx)) (G1.one_rep (K := FpV adx)) [n]
  have s2 := Jac.scale_rep (goodCurve2 (FpV adx)) (G2.one_rep (K := FpV adx)) [5]
  exact (C90_opening (s1 25) (s1 8) s2 [3] [9] rfl rfl y s).2 (by decide +kernel)

end Bls.Props
