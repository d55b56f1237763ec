import Verif.Proof.LiveArguments
import Verif.Props.Product

/-!
# C104: a callback that changes the arguments

`st k` is the state of the caller after `k` calls of the callback `y`. `points s i`, `scalars s i`, `pairs s i` are the elements of the
spans in the state `s`.
-/

namespace Bls.Props
open Bls Jac Pairing

attribute [local irreducible] p q eps pairVal gtGen

variable {adx : Bool} {σ ε : Type} {y : σ → Except ε σ} {st : ℕ → σ}

/-- C104: `g1::weightedSum` reads every point and every scalar again for every window of the scalars. The result is the sum of the
digits times the points, each digit and each point as they are after the number of calls that is made until then. -/
theorem C104_sum_g1 (np ns : ℕ) (points : σ → ℕ → G1 (FpV adx)) (scalars : σ → ℕ → List UInt64) (P : σ → ℕ → E1 (FpV adx))
    (hP : ∀ k, ∀ i < min ns np, (points (st k) i).Rep (P (st k) i)) (hn : min ns np < 2 ^ 64)
    (hy : ∀ k < sumCalls (min ns np), y (st k) = .ok (st (k + 1))) :
    ∃ r, weightedSumLive np ns points scalars (some y) (st 0) = .ok (r, st (sumCalls (min ns np))) ∧
      r.Rep (∑ j ∈ Finset.range (sumWindows (min ns np)), ∑ i ∈ Finset.range (min ns np),
        digitPart (sumWidth (min ns np)) j (wordsVal (scalars (st (callsBefore (min ns np) j i)) i)) •
          P (st (callsBefore (min ns np) j i)) i) :=
  weightedSumLive_rep (goodCurve1 _) np ns points scalars P hP hn hy

/-- C104: the same for `g2::weightedSum`. -/
theorem C104_sum_g2 (np ns : ℕ) (points : σ → ℕ → G2 (FpV adx)) (scalars : σ → ℕ → List UInt64) (P : σ → ℕ → E2 (FpV adx))
    (hP : ∀ k, ∀ i < min ns np, (points (st k) i).Rep (P (st k) i)) (hn : min ns np < 2 ^ 64)
    (hy : ∀ k < sumCalls (min ns np), y (st k) = .ok (st (k + 1))) :
    ∃ r, weightedSumLive np ns points scalars (some y) (st 0) = .ok (r, st (sumCalls (min ns np))) ∧
      r.Rep (∑ j ∈ Finset.range (sumWindows (min ns np)), ∑ i ∈ Finset.range (min ns np),
        digitPart (sumWidth (min ns np)) j (wordsVal (scalars (st (callsBefore (min ns np) j i)) i)) •
          P (st (callsBefore (min ns np) j i)) i) :=
  weightedSumLive_rep (goodCurve2 _) np ns points scalars P hP hn hy

/-- C104: so a callback that leaves the points and the scalars as they are, whatever else it changes, gets the weighted sum. It is
enough that the points stay the same points of the curve; their coordinates may change. -/
theorem C104_unchanged (np ns : ℕ) (scalars : σ → ℕ → List UInt64) (hn : min ns np < 2 ^ 64)
    (hy : ∀ k < sumCalls (min ns np), y (st k) = .ok (st (k + 1)))
    (hs : ∀ k, ∀ i < min ns np, (scalars (st k) i).length = 4 ∧ wordsVal (scalars (st k) i) = wordsVal (scalars (st 0) i)) :
    (∀ (points : σ → ℕ → G1 (FpV adx)) (P : ℕ → E1 (FpV adx)), (∀ k, ∀ i < min ns np, (points (st k) i).Rep (P i)) →
      ∃ r, weightedSumLive np ns points scalars (some y) (st 0) = .ok (r, st (sumCalls (min ns np))) ∧
        r.Rep (∑ i ∈ Finset.range (min ns np), wordsVal (scalars (st 0) i) • P i)) ∧
    (∀ (points : σ → ℕ → G2 (FpV adx)) (P : ℕ → E2 (FpV adx)), (∀ k, ∀ i < min ns np, (points (st k) i).Rep (P i)) →
      ∃ r, weightedSumLive np ns points scalars (some y) (st 0) = .ok (r, st (sumCalls (min ns np))) ∧
        r.Rep (∑ i ∈ Finset.range (min ns np), wordsVal (scalars (st 0) i) • P i)) := by
  have hv : ∀ i < min ns np, wordsVal (scalars (st 0) i) < 2 ^ 256 := fun i hi => by
    have h := wordsVal_lt (scalars (st 0) i)
    rwa [(hs 0 i hi).1] at h
  constructor
  · intro points P hP
    obtain ⟨r, h1, h2⟩ := C104_sum_g1 np ns points scalars (fun _ i => P i) hP hn hy
    refine ⟨r, h1, ?_⟩
    rw [← live_same (min ns np) P _ hv]
    convert h2 using 1
    refine Finset.sum_congr rfl fun j _ => Finset.sum_congr rfl fun i hi => ?_
    rw [(hs (callsBefore (min ns np) j i) i (Finset.mem_range.1 hi)).2]
  · intro points P hP
    obtain ⟨r, h1, h2⟩ := C104_sum_g2 np ns points scalars (fun _ i => P i) hP hn hy
    refine ⟨r, h1, ?_⟩
    rw [← live_same (min ns np) P _ hv]
    convert h2 using 1
    refine Finset.sum_congr rfl fun j _ => Finset.sum_congr rfl fun i hi => ?_
    rw [(hs (callsBefore (min ns np) j i) i (Finset.mem_range.1 hi)).2]

/-- One point; the callback counts its calls and changes nothing else. -/
example : ∃ r : G1 (FpV adx), weightedSumLive 1 1 (fun _ _ => G1.one) (fun _ _ => [5, 0, 0, 0]) (some fun n : ℕ => (.ok (n + 1) : Except Empty ℕ)) 0 =
    .ok (r, 258) ∧ r.Rep (5 • gen1 (FpV adx)) := by
  obtain ⟨r, h1, h2⟩ := (C104_unchanged (adx := adx) (st := id) (y := fun n : ℕ => (.ok (n + 1) : Except Empty ℕ)) 1 1
    (fun _ _ => [5, 0, 0, 0]) (by norm_num) (fun _ _ => rfl) (fun _ _ _ => ⟨rfl, rfl⟩)).1 (fun _ _ => G1.one) (fun _ => gen1 (FpV adx))
    (fun _ _ _ => G1.one_rep)
  rw [Nat.min_self, show sumCalls 1 = 258 by decide +kernel] at h1
  rw [Nat.min_self, Finset.sum_range_one, show wordsVal [5, 0, 0, 0] = 5 by decide +kernel] at h2
  exact ⟨r, h1, h2⟩

/-- The scalar is 1 before the third call and 8 from then on. -/
def changing (n : ℕ) : List UInt64 := if n < 3 then [1, 0, 0, 0] else [8, 0, 0, 0]

theorem changing_digits : (∑ j ∈ Finset.range (sumWindows 1), digitPart (sumWidth 1) j (wordsVal (changing (callsBefore 1 j 0)))) = 9 := by
  decide +kernel

/-- C104: if the callback changes a scalar, the result need not be the weighted sum for the values before or after the change, nor for
any values that the scalar has had: here the scalar is 1 and then 8, and the result is nine times the point. -/
theorem C104_sum_false : (∀ n, wordsVal (changing n) = 1 ∨ wordsVal (changing n) = 8) ∧
    (∃ r : G1 (FpV adx), weightedSumLive 1 1 (fun _ _ => G1.one) (fun n _ => changing n) (some fun n : ℕ => (.ok (n + 1) : Except Empty ℕ)) 0 =
      .ok (r, 258) ∧ r.Rep (9 • gen1 (FpV adx)) ∧ ∀ n, ¬ r.Rep (wordsVal (changing n) • gen1 (FpV adx))) ∧
    (∃ r : G2 (FpV adx), weightedSumLive 1 1 (fun _ _ => G2.one) (fun n _ => changing n) (some fun n : ℕ => (.ok (n + 1) : Except Empty ℕ)) 0 =
      .ok (r, 258) ∧ r.Rep (9 • gen2 (FpV adx)) ∧ ∀ n, ¬ r.Rep (wordsVal (changing n) • gen2 (FpV adx))) := by
  have hv : ∀ n, wordsVal (changing n) = 1 ∨ wordsVal (changing n) = 8 := fun n => by
    rw [changing]
    split_ifs
    · exact Or.inl (by decide +kernel)
    · exact Or.inr (by decide +kernel)
  have hq : ∀ n, ¬ wordsVal (changing n) ≡ 9 [MOD q] := fun n => by
    rcases hv n with h | h <;> rw [h] <;> unfold q <;> decide +kernel
  have := Fact.mk q_prime
  refine ⟨hv, ?_, ?_⟩
  · obtain ⟨r, h1, h2⟩ := C104_sum_g1 (adx := adx) (st := id) (y := fun n : ℕ => (.ok (n + 1) : Except Empty ℕ)) 1 1
      (fun _ _ => G1.one) (fun n _ => changing n) (fun _ _ => gen1 (FpV adx)) (fun _ _ _ => G1.one_rep) (by norm_num) (fun _ _ => rfl)
    rw [Nat.min_self, show sumCalls 1 = 258 by decide +kernel] at h1
    rw [Nat.min_self] at h2
    simp only [Finset.sum_range_one, id] at h2
    rw [← Finset.sum_smul, changing_digits] at h2
    refine ⟨r, h1, h2, fun n h => hq n ?_⟩
    have e := h.unique h2
    rw [nsmul_eq_nsmul_iff_modEq, addOrderOf_eq_prime (q_smul_gen1 _) (gen1_ne_zero _)] at e
    exact e
  · obtain ⟨r, h1, h2⟩ := C104_sum_g2 (adx := adx) (st := id) (y := fun n : ℕ => (.ok (n + 1) : Except Empty ℕ)) 1 1
      (fun _ _ => G2.one) (fun n _ => changing n) (fun _ _ => gen2 (FpV adx)) (fun _ _ _ => G2.one_rep) (by norm_num) (fun _ _ => rfl)
    rw [Nat.min_self, show sumCalls 1 = 258 by decide +kernel] at h1
    rw [Nat.min_self] at h2
    simp only [Finset.sum_range_one, id] at h2
    rw [← Finset.sum_smul, changing_digits] at h2
    refine ⟨r, h1, h2, fun n h => hq n ?_⟩
    have e := h.unique h2
    rw [nsmul_eq_nsmul_iff_modEq, addOrderOf_eq_prime (q_smul_gen2 _) (gen2_ne_zero _)] at e
    exact e

/-- C104: `calculate` reads the second points before the callback is called, in lists of at least 20 pairs, and the first points after
it. So the value is that of the pairs made of the first points after the call and the second points before it. What the callback throws goes to the caller. -/
theorem C104_pairing (n : ℕ) (pairs : σ → ℕ → G1 (FpV adx) × G2 (FpV adx)) (s : σ) :
    (n < 20 → ∃ v, calculate ((List.range n).map (pairs s)) none () = some (v, ()) ∧ calculateLive n pairs (some y) s = .ok (v, s)) ∧
    (20 ≤ n → ∀ t, y s = .ok t → ∃ v, calculate ((List.range n).map fun i => ((pairs t i).1, (pairs s i).2)) none () = some (v, ()) ∧
      calculateLive n pairs (some y) s = .ok (v, t)) ∧
    (20 ≤ n → ∀ e, y s = .error e → calculateLive n pairs (some y) s = .error (.thrown e)) := by
  refine ⟨fun h => ⟨_, calculate_eq _ _ _, ?_⟩, fun h t ht => ⟨_, calculate_eq _ _ _, ?_⟩, fun h e he => ?_⟩
  · rw [calculateLive_eq, if_neg (by omega)]
    simp only
    rw [calculateRun_eq]
    rfl
  · rw [calculateLive_eq, if_pos h]
    simp only
    rw [ht]
    simp only
    rw [calculateRun_eq]
    rfl
  · rw [calculateLive_eq, if_pos h]
    simp only
    rw [he]
    simp only
    rw [if_neg (by omega)]

theorem added_replicate {a : G1 (FpV adx)} {b : G2 (FpV adx)} (ha : a.isZero = false) (hb : b.isZero = false) (n : ℕ)
    (v : List (G1 (FpV adx) × G2 (FpV adx))) :
    (List.replicate n (a, b)).foldl (fun v x => addPair v x.1 x.2) v = v ++ List.replicate n (a.affine, b.affine) := by
  induction n generalizing v with
  | zero => simp
  | succ n ih =>
    rw [List.replicate_succ, List.foldl_cons, ih, addPair, if_pos (by simp [ha, hb]), List.replicate_succ, List.append_assoc]
    rfl

theorem twenty {a : G1 (FpV adx)} {b : G2 (FpV adx)} {m n : ℕ} (ha : a.Rep (m • gen1 (FpV adx))) (hb : b.Rep (n • gen2 (FpV adx)))
    (ha0 : a.isZero = false) (hb0 : b.isZero = false) :
    (calculate ((List.range 20).map fun _ => (a.affine, b.affine)) none ()).map Prod.fst =
      some (gtGen (fun n => (n : FpV adx)) ^ (20 * (m * n))) := by
  have hm : Multiples (List.replicate 20 (a, b)) (List.replicate 20 (m, n)) :=
    List.forall₂_iff_get.2 ⟨by simp only [List.length_replicate], fun i h1 h2 => by
      rw [List.get_eq_getElem, List.get_eq_getElem, List.getElem_replicate, List.getElem_replicate]; exact ⟨ha, hb⟩⟩
  have h := C90_value hm (none : Option (Unit → Unit)) ()
  rw [added, added_replicate ha0 hb0, List.nil_append, List.map_replicate, List.sum_replicate, smul_eq_mul] at h
  rw [List.map_const', List.length_range]
  exact h

/-- The callback replaces all points by their opposites. -/
def opposite : Bool → ℕ → G1 (FpV adx) × G2 (FpV adx)
  | false, _ => (G1.one.affine, G2.one.affine)
  | true, _ => (G1.one.negate.affine, G2.one.negate.affine)

/-- C104: if the callback replaces all points by their opposites, the lists before and after have the same value, but `calculate`
returns another one, the inverse. -/
theorem C104_pairing_false : ∃ v w : Fp12 (FpV adx),
    calculate ((List.range 20).map (opposite (adx := adx) false)) none () = some (w, ()) ∧
    calculate ((List.range 20).map (opposite (adx := adx) true)) none () = some (w, ()) ∧
    calculateLive 20 (opposite (adx := adx)) (some fun _ => (.ok true : Except Empty Bool)) false = .ok (v, true) ∧ v ≠ w := by
  have hq := q_prime.pos
  have e1 : -gen1 (FpV adx) = (q - 1) • gen1 (FpV adx) := by
    rw [neg_eq_iff_add_eq_zero, ← succ_nsmul', Nat.sub_add_cancel hq, q_smul_gen1]
  have e2 : -gen2 (FpV adx) = (q - 1) • gen2 (FpV adx) := by
    rw [neg_eq_iff_add_eq_zero, ← succ_nsmul', Nat.sub_add_cancel hq, q_smul_gen2]
  have a1 : (G1.one : G1 (FpV adx)).Rep (1 • gen1 (FpV adx)) := by rw [one_nsmul]; exact G1.one_rep
  have b1 : (G2.one : G2 (FpV adx)).Rep (1 • gen2 (FpV adx)) := by rw [one_nsmul]; exact G2.one_rep
  have a2 : (G1.one : G1 (FpV adx)).negate.Rep ((q - 1) • gen1 (FpV adx)) := by rw [← e1]; exact Jac.neg_rep G1.one_rep
  have b2 : (G2.one : G2 (FpV adx)).negate.Rep ((q - 1) • gen2 (FpV adx)) := by rw [← e2]; exact Jac.neg_rep G2.one_rep
  have z1 : (G1.one : G1 (FpV adx)).isZero = false := by
    rw [Bool.eq_false_iff, ne_eq, Jac.Rep.isZero_iff G1.one_rep]; exact gen1_ne_zero _
  have z2 : (G2.one : G2 (FpV adx)).isZero = false := by
    rw [Bool.eq_false_iff, ne_eq, Jac.Rep.isZero_iff G2.one_rep]; exact gen2_ne_zero _
  have z3 : (G1.one : G1 (FpV adx)).negate.isZero = false := by
    rw [Bool.eq_false_iff, ne_eq, Jac.Rep.isZero_iff (Jac.neg_rep G1.one_rep), neg_eq_zero]; exact gen1_ne_zero _
  have z4 : (G2.one : G2 (FpV adx)).negate.isZero = false := by
    rw [Bool.eq_false_iff, ne_eq, Jac.Rep.isZero_iff (Jac.neg_rep G2.one_rep), neg_eq_zero]; exact gen2_ne_zero _
  have t1 := twenty a1 b1 z1 z2
  have t2 := twenty a2 b2 z3 z4
  have t3 := twenty a2 b1 z3 z2
  obtain ⟨v, hv, hl⟩ := (C104_pairing (y := fun _ => (.ok true : Except Empty Bool)) 20 (opposite (adx := adx)) false).2.1 le_rfl true rfl
  have hp := eps_primitive (q_smul_gen1 (FpV adx)) (q_smul_gen2 _) (gen1_ne_zero _) (gen2_ne_zero _)
  rw [eps_gen] at hp
  have hmod : ∀ m n : ℕ, gtGen (fun n => (n : FpV adx)) ^ m = gtGen (fun n => (n : FpV adx)) ^ n ↔ m ≡ n [MOD q] := fun m n => by
    rw [pow_eq_pow_mod m hp.pow_eq_one, pow_eq_pow_mod n hp.pow_eq_one]
    exact ⟨hp.pow_inj (Nat.mod_lt _ hq) (Nat.mod_lt _ hq), fun h => by rw [h]⟩
  have m1 : 20 * ((q - 1) * (q - 1)) ≡ 20 * (1 * 1) [MOD q] := by unfold q; decide +kernel
  have m2 : ¬ 20 * ((q - 1) * 1) ≡ 20 * (1 * 1) [MOD q] := by unfold q; decide +kernel
  refine ⟨v, gtGen (fun n => (n : FpV adx)) ^ (20 * (1 * 1)), ?_, ?_, hl, ?_⟩
  · obtain ⟨x, hx, hx'⟩ := Option.map_eq_some_iff.1 t1
    exact hx.trans (congrArg some (Prod.ext hx' rfl))
  · rw [(hmod _ _).2 m1] at t2
    obtain ⟨x, hx, hx'⟩ := Option.map_eq_some_iff.1 t2
    exact hx.trans (congrArg some (Prod.ext hx' rfl))
  · have h := congrArg (Option.map Prod.fst) hv
    have h3 := t3.symm.trans h
    rw [Option.map_some, Option.some_inj] at h3
    exact fun e => m2 ((hmod _ _).1 (h3.trans e))

/-- Below 20 pairs the callback is not called; from 20 pairs on, what it throws goes to the caller. -/
example : (∃ v, calculateLive 19 (opposite (adx := adx)) (some fun _ => (.error 7 : Except ℕ Bool)) false = .ok (v, false)) ∧
    calculateLive 20 (opposite (adx := adx)) (some fun _ => (.error 7 : Except ℕ Bool)) false = .error (.thrown 7) :=
  ⟨((C104_pairing 19 opposite false).1 (by norm_num)).imp fun _ h => h.2, (C104_pairing 20 opposite false).2.2 le_rfl 7 rfl⟩

end Bls.Props
