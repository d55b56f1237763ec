import Verif.Proof.PairIff
import Verif.Proof.MapCount

/-!
# The pairing of points outside the subgroups
-/

set_option linter.unusedSectionVars false

namespace Bls.Pairing
open Bls WeierstrassCurve.Affine Chord

attribute [local irreducible] p q

variable {K : Type} [Field K] [FpOps K] [LawfulFp K] [DecidableEq K]

theorem line_ne_zero {a b c : Fp2 K} (h : c ≠ 0) : Fp12.line a b c ≠ 0 := fun e => h (congrArg (fun v : Fp12 K => v.c1.c1) e)

theorem ofBase_ne_zero {y : K} (h : y ≠ 0) : Fp2.ofBase y ≠ 0 := fun e => h (congrArg Fp2.c0 e)

theorem lineVal_ne_zero {A : G1 K} {c : Coeff K} (hy : A.y ≠ 0) (hc : c.c2 ≠ 0) : lineVal A c ≠ 0 :=
  line_ne_zero (mul_ne_zero hc (ofBase_ne_zero hy))

theorem lineVal_zero (A : G1 K) : lineVal A ⟨0, 0, 0⟩ = 0 := by
  rw [lineVal, zero_mul, zero_mul]
  rfl

/-- Doubling a finite point: the line is not zero. -/
theorem dbl_c2 {r : G2 K} {R : E2 K} (hr : r.HRep R) : (doublingStep r).1.c2 ≠ 0 := by
  match R, hr with
  | .some x y hn, ⟨hz, _, hy⟩ =>
    rw [doublingStep_eq]
    change -(2 * r.y * r.z) ≠ 0
    rw [hy]
    exact neg_ne_zero.2 (mul_ne_zero (mul_ne_zero (goodCurve2 K).two (mul_ne_zero (y2_ne_zero hn) hz)) hz)

/-- Adding different points that are not opposite: the line is not zero. -/
theorem add_c2 {r t : G2 K} {R T : E2 K} (hr : r.HRep R) (ht : t.HRep T) (hz : t.z = 1) (hRT : R + T ≠ 0)
    (hRT' : R ≠ T) : (additionStep r t).1.c2 ≠ 0 := by
  match R, hr, T, ht with
  | .some x y hn, ⟨h1, h2, h3⟩, .some x' y' hn', ⟨_, h5, h6⟩ =>
    rw [hz, mul_one] at h5 h6
    rw [additionStep_eq]
    change r.x - t.x * r.z ≠ 0
    rw [h2, h5, ← sub_mul]
    refine mul_ne_zero (sub_ne_zero.2 fun e => ?_) h1
    subst e
    have e1 := point_equation hn
    have e2 := point_equation hn'
    have h7 : (y - y') * (y + y') = 0 := by linear_combination e1 - e2
    rcases mul_eq_zero.1 h7 with h8 | h8
    · obtain rfl := sub_eq_zero.1 h8
      exact hRT' rfl
    · exact hRT (Point.add_of_Y_eq rfl (by rw [negY_curve]; exact eq_neg_of_add_eq_zero_left h8))

/-! ## Points whose order is not 13 -/

/-- The multiples that the loop of `pre_compute` meets. -/
theorem multiples_ok : ∀ i < 63, Nat.gcd (2 * (zabs / 2 ^ (i + 1))) card2 ∣ 13 ∧ (loopBit i = true →
    Nat.gcd (2 * (zabs / 2 ^ (i + 1)) + 1) card2 ∣ 13 ∧ Nat.gcd (2 * (zabs / 2 ^ (i + 1)) - 1) card2 ∣ 13) := by
  decide +kernel

theorem loopVal_ne_zero {A : G1 K} (hy : A.y ≠ 0) {tp : G2 K} {Q : E2 K} (ht : tp.HRep Q) (hz : tp.z = 1)
    (hord : ∀ m, Nat.gcd m card2 ∣ 13 → m • Q ≠ 0) : ∀ (i : ℕ), i ≤ 63 → ∀ (k : ℕ) (r : G2 K) (f : Fp12 K) (V : ℕ → Fp12 K),
    (∀ j < entries i, V (k + j) = lineVal A (entry (preComputeLoop tp i r) j)) → r.HRep ((zabs / 2 ^ i) • Q) → f ≠ 0 →
    loopVal V i k f ≠ 0
  | 0, _, k, r, f, V, _, _, hf => hf
  | i + 1, hi, k, r, f, V, hV, hr, hf => by
    obtain ⟨g0, g1⟩ := multiples_ok i (by omega)
    have hb : zabs / 2 ^ i = 2 * (zabs / 2 ^ (i + 1)) + if loopBit i then 1 else 0 := by
      rw [loopBit_eq i (by omega), Nat.testBit_eq_decide_div_mod_eq, pow_succ, ← Nat.div_div_eq_div_mul]
      have := Nat.div_add_mod (zabs / 2 ^ i) 2
      rcases Nat.mod_two_eq_zero_or_one (zabs / 2 ^ i) with h | h
      · rw [h, if_neg (by simp)]; omega
      · rw [h, if_pos (by simp)]; omega
    have hn : loopBit i = true → 1 ≤ 2 * (zabs / 2 ^ (i + 1)) := fun _ => by
      have : 1 ≤ zabs / 2 ^ (i + 1) :=
        (Nat.one_le_div_iff (Nat.two_pow_pos _)).2 (le_trans (Nat.pow_le_pow_right (by norm_num) hi) (by decide +kernel))
      omega
    generalize zabs / 2 ^ (i + 1) = n at g0 g1 hb hr hn
    have h2n : n • Q + n • Q = (2 * n) • Q := by rw [two_mul, add_smul]
    obtain ⟨hd, -⟩ := dbl_HRep hr (by rw [h2n]; exact hord _ g0)
    have hsq : (if i ≠ 62 then f * f else f) ≠ 0 := by
      split_ifs
      · exact mul_ne_zero hf hf
      · exact hf
    simp only [loopVal]
    by_cases hbit : loopBit i = true
    · obtain ⟨g2, g3⟩ := g1 hbit
      rw [if_pos hbit]
      simp only [entries, preComputeLoop, if_pos hbit] at hV
      have v0 := hV 0 (by omega)
      have v1 := hV 1 (by omega)
      rw [entry_cons_zero, add_zero] at v0
      rw [entry_cons_succ, entry_cons_zero] at v1
      rw [h2n] at hd
      have hs : (2 * n) • Q + Q = (2 * n + 1) • Q := by rw [add_smul (2 * n) 1, one_smul]
      rw [if_pos hbit] at hb
      have hn' := hn hbit
      have e1 : (2 * n) • Q + Q ≠ 0 := by rw [hs]; exact hord _ g2
      have e2 : (2 * n) • Q ≠ Q := by
        intro e
        apply hord (2 * n - 1) g3
        have : (2 * n - 1) • Q + Q = Q := by
          rw [← succ_nsmul, Nat.sub_add_cancel hn']; exact e
        exact add_eq_right.1 this
      obtain ⟨ha, -⟩ := add_HRep hd ht hz e1 e2
      refine loopVal_ne_zero hy ht hz hord i (by omega) (k + 2) _ _ V
        (fun j hj => by
          have := hV (j + 2) (by omega)
          rwa [show k + (j + 2) = k + 2 + j by omega] at this) ?_ (mul_ne_zero (mul_ne_zero hsq ?_) ?_)
      · rw [hb, ← hs]
        exact ha
      · rw [v0]
        exact lineVal_ne_zero hy (dbl_c2 hr)
      · rw [v1]
        exact lineVal_ne_zero hy (add_c2 hd ht hz e1 e2)
    · rw [if_neg hbit]
      simp only [entries, preComputeLoop, if_neg hbit] at hV
      have v0 := hV 0 (by omega)
      rw [entry_cons_zero, add_zero] at v0
      rw [h2n] at hd
      rw [if_neg hbit, add_zero] at hb
      refine loopVal_ne_zero hy ht hz hord i (by omega) (k + 1) _ _ V
        (fun j hj => by
          have := hV (j + 1) (by omega)
          rwa [show k + (j + 1) = k + 1 + j by omega] at this) ?_ (mul_ne_zero hsq ?_)
      · rw [hb]
        exact hd
      · rw [v0]
        exact lineVal_ne_zero hy (dbl_c2 hr)

/-! ## Points of order 13 -/

theorem loopVal_start_zero (V : ℕ → Fp12 K) : ∀ i k : ℕ, loopVal V i k 0 = 0
  | 0, _ => rfl
  | i + 1, k => by
    simp only [loopVal, zero_mul, ite_self, loopVal_start_zero V i]

/-- From `r` on, with `i` rounds left, a line is zero. -/
def Dead (A : G1 K) (tp : G2 K) (i : ℕ) (r : G2 K) : Prop := ∀ (k : ℕ) (f : Fp12 K) (V : ℕ → Fp12 K),
  (∀ j < entries i, V (k + j) = lineVal A (entry (preComputeLoop tp i r) j)) → loopVal V i k f = 0

variable {A : G1 K} {tp : G2 K}

theorem Dead.dbl {i : ℕ} {r : G2 K} (hb : loopBit i = false) (h : Dead A tp i (doublingStep r).2) : Dead A tp (i + 1) r := by
  intro k f V hV
  have hb' : ¬ loopBit i = true := by rw [hb]; exact Bool.noConfusion
  simp only [entries, preComputeLoop, if_neg hb'] at hV
  simp only [loopVal, if_neg hb']
  refine h _ _ V fun j hj => ?_
  have := hV (j + 1) (by omega)
  rwa [show k + (j + 1) = k + 1 + j by omega] at this

theorem Dead.dblAdd {i : ℕ} {r : G2 K} (hb : loopBit i = true) (h : Dead A tp i (additionStep (doublingStep r).2 tp).2) :
    Dead A tp (i + 1) r := by
  intro k f V hV
  simp only [entries, preComputeLoop, if_pos hb] at hV
  simp only [loopVal, if_pos hb]
  refine h _ _ V fun j hj => ?_
  have := hV (j + 2) (by omega)
  rwa [show k + (j + 2) = k + 2 + j by omega] at this

theorem dead_zero (i : ℕ) : Dead A tp (i + 1) ⟨0, 0, 0⟩ := by
  intro k f V hV
  have h0 : V k = 0 := by
    have hc : (doublingStep (⟨0, 0, 0⟩ : G2 K)).1 = ⟨0, 0, 0⟩ := by
      rw [doublingStep_eq]
      simp only [mul_zero, sub_zero, zero_mul, neg_zero]
    have h1 : entry (preComputeLoop tp (i + 1) ⟨0, 0, 0⟩) 0 = ⟨0, 0, 0⟩ := by
      rw [← hc, preComputeLoop]
      split_ifs <;> rfl
    have h2 : 0 < entries (i + 1) := by
      rw [entries]
      split_ifs <;> omega
    rw [← add_zero k, hV 0 h2, h1, lineVal_zero]
  simp only [loopVal, h0, mul_zero, zero_mul, loopVal_start_zero, ite_self]

theorem exists_y {r : G2 K} (hx : r.x = 0) (hz : r.z = 0) : ∃ y, r = ⟨0, y, 0⟩ := by
  obtain ⟨x, y, z⟩ := r
  obtain rfl := hx
  obtain rfl := hz
  exact ⟨y, rfl⟩

/-- Doubling a point whose only coordinate other than zero is `y`. -/
theorem dbl_y (y : Fp2 K) : ∃ y', (doublingStep (⟨0, y, 0⟩ : G2 K)).2 = ⟨0, y', 0⟩ := by
  rw [doublingStep_eq]
  refine exists_y ?_ ?_ <;> simp only [mul_zero, zero_mul]

theorem add_y (y : Fp2 K) : (additionStep (⟨0, y, 0⟩ : G2 K) tp).2 = ⟨0, 0, 0⟩ := by
  rw [additionStep_eq]
  simp only [mul_zero, zero_mul, sub_zero, add_zero]

/-- Adding opposite points. -/
theorem add_neg_y {r : G2 K} {Q : E2 K} (hr : r.HRep (-Q)) (ht : tp.HRep Q) (hz : tp.z = 1) :
    ∃ y, (additionStep r tp).2 = ⟨0, y, 0⟩ := by
  match Q, hr, ht with
  | .some x y hn, hr, ⟨_, h5, _⟩ =>
    rw [Point.neg_some] at hr
    obtain ⟨_, h2, _⟩ := hr
    rw [hz, mul_one] at h5
    rw [additionStep_eq]
    have h0 : r.x - tp.x * r.z = 0 := by rw [h2, h5, sub_self]
    refine exists_y ?_ ?_ <;> simp only [h0, mul_zero, zero_mul]

theorem dead_13 {Q : E2 K} (ht : tp.HRep Q) (hz : tp.z = 1) (h13 : 13 • Q = 0) (h0 : Q ≠ 0) : Dead A tp 63 tp := by
  have ord : addOrderOf Q = 13 := by
    have : Fact (Nat.Prime 13) := ⟨by norm_num⟩
    exact addOrderOf_eq_prime h13 h0
  have hne : ∀ m, ¬ 13 ∣ m → m • Q ≠ 0 := fun m hm e => hm (ord ▸ addOrderOf_dvd_of_nsmul_eq_zero e)
  have e2 : Q + Q = 2 • Q := (two_nsmul Q).symm
  have e3 : 2 • Q + Q = 3 • Q := (succ_nsmul Q 2).symm
  have e6 : 3 • Q + 3 • Q = 6 • Q := (add_nsmul Q 3 3).symm
  have e12 : 6 • Q + 6 • Q = 12 • Q := (add_nsmul Q 6 6).symm
  have en : 12 • Q = -Q := eq_neg_of_add_eq_zero_left (by rw [← succ_nsmul]; exact h13)
  have h1 := (dbl_HRep ht (by rw [e2]; exact hne 2 (by norm_num))).1
  rw [e2] at h1
  have h2 := (add_HRep h1 ht hz (by rw [e3]; exact hne 3 (by norm_num)) (fun e => h0 (by
    rw [two_nsmul] at e
    exact add_eq_right.1 e))).1
  rw [e3] at h2
  have h3 := (dbl_HRep h2 (by rw [e6]; exact hne 6 (by norm_num))).1
  rw [e6] at h3
  have h4 := (dbl_HRep h3 (by rw [e12]; exact hne 12 (by norm_num))).1
  rw [e12, en] at h4
  obtain ⟨y, hy⟩ := add_neg_y h4 ht hz
  refine .dblAdd (by decide +kernel) (.dbl (by decide +kernel) (.dblAdd (by decide +kernel) ?_))
  rw [hy]
  obtain ⟨y1, hy1⟩ := dbl_y y
  obtain ⟨y2, hy2⟩ := dbl_y y1
  obtain ⟨y3, hy3⟩ := dbl_y y2
  refine .dbl (by decide +kernel) ?_
  rw [hy1]
  refine .dbl (by decide +kernel) ?_
  rw [hy2]
  refine .dblAdd (by decide +kernel) ?_
  rw [hy3, add_y]
  exact dead_zero 56

/-! ## The pairing -/

/-- The pairing of two points is zero if and only if none is infinity and the second has order 13. -/
theorem eps_eq_zero_iff (P : E1 K) (Q : E2 K) : eps P Q = 0 ↔ P ≠ 0 ∧ Q ≠ 0 ∧ 13 • Q = 0 := by
  match P, Q with
  | .zero, Q => exact ⟨fun h => absurd h one_ne_zero, fun h => absurd rfl h.1⟩
  | .some x y h, .zero => exact ⟨fun h => absurd h one_ne_zero, fun h => absurd rfl h.2.1⟩
  | .some x y h, .some x' y' h' =>
    have hz : Jac.isZero (⟨x', y', 1⟩ : G2 K) = false := Jac.isZero_false.2 one_ne_zero
    have hr : Jac.HRep (⟨x', y', 1⟩ : G2 K) (Point.some x' y' h') :=
      ⟨one_ne_zero, (mul_one _).symm, (mul_one _).symm⟩
    have hp : preCompute (⟨x', y', 1⟩ : G2 K) = preComputeLoop ⟨x', y', 1⟩ 63 ⟨x', y', 1⟩ := by
      rw [preCompute, hz]; rfl
    have hm : eps (Point.some x y h) (Point.some x' y' h') = 0 ↔ millerVal (⟨x, y, 1⟩ : G1 K) ⟨x', y', 1⟩ = 0 := by
      change (_ ^ p ^ 6) ^ finalExp = 0 ↔ _
      rw [pow_eq_zero_iff (by decide +kernel), pow_eq_zero_iff (by decide +kernel)]
    rw [hm, millerVal]
    have hP0 : Point.some x y h ≠ 0 := Point.some_ne_zero h
    have hQ0 : Point.some x' y' h' ≠ 0 := Point.some_ne_zero h'
    constructor
    · intro e
      refine ⟨hP0, hQ0, ?_⟩
      by_contra h13
      refine loopVal_ne_zero (A := ⟨x, y, 1⟩) (y1_ne_zero h) hr rfl ?_ 63 le_rfl 0 ⟨x', y', 1⟩ 1 _ (fun j _ => by rw [zero_add, hp])
        ?_ one_ne_zero e
      · intro m hm e
        have hc : card2 • (Point.some x' y' h') = 0 := by
          rw [← E2_card K]
          exact card_nsmul_eq_zero'
        have hg := addOrderOf_dvd_of_nsmul_eq_zero e
        have hg' := addOrderOf_dvd_of_nsmul_eq_zero hc
        exact h13 (addOrderOf_dvd_iff_nsmul_eq_zero.1 ((Nat.dvd_gcd hg hg').trans hm))
      · rw [show zabs / 2 ^ 63 = 1 by decide +kernel, one_smul]
        exact hr
    · rintro ⟨-, -, h13⟩
      exact dead_13 (A := ⟨x, y, 1⟩) hr rfl h13 hQ0 0 1 _ (fun j _ => by rw [zero_add, hp])

/-- Otherwise it lies in the target group. -/
theorem eps_order_iff (P : E1 K) (Q : E2 K) : eps P Q ^ q = 1 ↔ ¬(P ≠ 0 ∧ Q ≠ 0 ∧ 13 • Q = 0) := by
  rw [← eps_eq_zero_iff]
  constructor
  · intro h e
    rw [e, zero_pow (by decide +kernel)] at h
    exact zero_ne_one h
  · intro h
    match P, Q, h with
    | .zero, Q, _ => exact one_pow _
    | .some x y _, .zero, _ => exact one_pow _
    | .some x y _, .some x' y' _, h =>
      refine finalExp_order fun e => h ?_
      change (_ ^ p ^ 6) ^ finalExp = 0
      rw [e, zero_pow (by decide +kernel)]

end Bls.Pairing
