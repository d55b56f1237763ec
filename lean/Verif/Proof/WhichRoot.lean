import Verif.Spec.WhichRoot
import Verif.Proof.Roots

/-! Which square root `fp::sqrt` and `fp2::sqrt` return, and what they leave behind when there is none. -/

namespace Bls

attribute [local irreducible] p

variable {K : Type} [Field K] [FpOps K] [LawfulFp K]

namespace FpC

theorem half_odd : Odd ((p - 1) / 2) ∧ Odd ((p + 1) / 4) := by
  constructor <;> rw [Nat.odd_iff] <;> decide +kernel

theorem half_two : (p - 1) / 2 + (p - 1) / 2 = p - 1 ∧ (p + 1) / 4 + (p + 1) / 4 = (p - 1) / 2 + 1 := by decide +kernel

theorem euler_neg {x : K} (h : ¬ IsSquare x) : x ^ ((p - 1) / 2) = -1 := by
  have h0 : x ≠ 0 := fun e => h (by rw [e]; exact ⟨0, (mul_zero 0).symm⟩)
  have h1 : x ^ ((p - 1) / 2) * x ^ ((p - 1) / 2) = 1 := by rw [← pow_add, half_two.1, IsFp.pow_pred h0]
  rcases mul_self_eq_one_iff.1 h1 with h2 | h2
  · exact (h ⟨_, by rw [sqrt_sq, h2, mul_one]⟩).elim
  · exact h2

theorem isSquare_of {x : K} (h : x ^ ((p - 1) / 2) = 1) : IsSquare x := ⟨_, by rw [sqrt_sq, h, mul_one]⟩

theorem one_ne_neg : (1 : K) ≠ -1 := fun h => by
  have h2 : (2 : K) = 0 := by linear_combination h
  exact IsFp.two_not_sq (0 : K) (by rw [h2]; ring)

theorem not_square_of {x : K} (h : x ^ ((p - 1) / 2) = -1) : ¬ IsSquare x := fun hs => by
  have h0 : x ≠ 0 := fun e => by
    rw [e, zero_pow half_pos] at h
    have : (1 : K) = 0 := by linear_combination h
    exact one_ne_zero this
  exact one_ne_neg ((euler hs h0).symm.trans h)

/-- Of `x` and `-x` one is a square. -/
theorem neg_square {x : K} (h : ¬ IsSquare x) : IsSquare (-x) :=
  isSquare_of (by rw [half_odd.1.neg_pow, euler_neg h, neg_neg])

theorem neg_not_square {x : K} (h0 : x ≠ 0) (h : IsSquare x) : ¬ IsSquare (-x) :=
  not_square_of (by rw [half_odd.1.neg_pow, euler h h0])

theorem sqrt_mul_self (s : K) (h : IsSquare s) : (sqrt (s * s)).1 = s := by
  rw [sqrt, Ops.exp_eq, pPlus1Over4_val, ← sq, ← pow_mul, two_mul, half_two.2, pow_succ]
  by_cases h0 : s = 0
  · rw [h0, mul_zero]
  · rw [euler h h0, one_mul]

theorem sqrt_which (x c : K) : ((sqrt x).2 = true ∧ (sqrt x).1 = c) ↔ c * c = x ∧ IsSquare c := by
  constructor
  · rintro ⟨h, rfl⟩
    refine ⟨sqrt_correct x h, ?_⟩
    obtain ⟨s, rfl⟩ := (sqrt_iff x).1 h
    by_cases hs : IsSquare s
    · rw [sqrt_mul_self s hs]; exact hs
    · have hn := neg_square hs
      rw [← neg_mul_neg, sqrt_mul_self _ hn]; exact hn
  · rintro ⟨rfl, h⟩
    exact ⟨(sqrt_iff _).2 ⟨c, rfl⟩, sqrt_mul_self c h⟩

theorem sqrt_fails (x : K) (h : (sqrt x).2 = false) : (sqrt x).1 * (sqrt x).1 = -x ∧ ¬ IsSquare (sqrt x).1 := by
  have hs : ¬ IsSquare x := fun hs => by rw [(sqrt_iff x).2 hs] at h; exact Bool.noConfusion h
  have he := euler_neg hs
  refine ⟨by rw [sqrt_sq, he, mul_neg_one], not_square_of ?_⟩
  rw [sqrt, Ops.exp_eq, pPlus1Over4_val]
  dsimp only
  rw [← pow_mul, mul_comm, pow_mul, he, half_odd.2.neg_one_pow]

end FpC

namespace Fp2

open FpC (half_two half_odd euler_neg)

theorem ofBase_mul' (a b : K) : ofBase (a * b) = ofBase a * ofBase b := by
  ext <;> simp [ofBase]

theorem frob_half (s : Fp2 K) : (s * s) ^ ((p - 1) / 2) * s = s.conj := by
  rw [← sq, ← pow_mul, two_mul, half_two.1, ← pow_succ, ← pow_p]
  congr 1
  decide +kernel

theorem sqrt_mul_self {s : Fp2 K} (h : FirstNotSquare s) : (sqrt (s * s)).1 = s := by
  have hq : ∀ x : K, (∃ y, y * y = x) ↔ IsSquare x := fun x => ⟨fun ⟨y, e⟩ => ⟨y, e.symm⟩, fun ⟨y, e⟩ => ⟨y, e.symm⟩⟩
  rw [FirstNotSquare, hq, hq] at h
  have hr : (s * s) ^ ((p + 1) / 4) = s ^ ((p - 1) / 2) * s := by
    rw [← sq, ← pow_mul, two_mul, half_two.2, pow_succ]
  have hf := frob_half s
  rw [sqrt_unfold, hr]
  by_cases h0 : s.c0 = 0
  · by_cases h1 : s.c1 = 0
    · have hs : s = 0 := by ext <;> assumption
      subst hs
      rw [mul_zero, zero_pow FpC.half_pos, if_neg, zero_mul]
      · exact mul_zero _
      · intro e
        rw [eq_comm, neg_eq_zero] at e
        exact one_ne_zero e
    · have hs : s = ⟨0, s.c1⟩ := by ext1 <;> [exact h0; rfl]
      have hs0 : s ≠ 0 := fun e => h1 (by rw [e]; rfl)
      have ha : (s * s) ^ ((p - 1) / 2) = -1 := by
        apply mul_right_cancel₀ hs0
        rw [hf, hs]
        ext <;> simp [conj]
      rw [if_pos ha]
      dsimp only
      have hss : s * s = ofBase (-(s.c1 * s.c1)) := by
        rw [hs]
        ext <;> simp [ofBase]
      have hk : s ^ ((p - 1) / 2) * s = ofBase s.c1 := by
        rw [← hr, hss, ofBase_pow]
        congr 1
        rw [half_odd.2.neg_pow, ← sq, ← pow_mul, two_mul, half_two.2, pow_succ, euler_neg (h.2 h0 h1)]
        ring
      rw [hk, hs]
      ext <;> simp [ofBase]
  · have hs0 : s ≠ 0 := fun e => h0 (by rw [e]; rfl)
    have ha : (s * s) ^ ((p - 1) / 2) ≠ -1 := by
      intro e
      rw [e] at hf
      have h2 : s.c0 = -s.c0 := by
        have := congrArg Fp2.c0 hf
        simpa [conj] using this.symm
      have h3 : (2 : K) * s.c0 = 0 := by linear_combination h2
      rcases mul_eq_zero.1 h3 with h3 | h3
      · exact IsFp.two_not_sq (0 : K) (by rw [h3]; ring)
      · exact h0 h3
    rw [if_neg ha]
    dsimp only
    have ht : ((s * s) ^ ((p - 1) / 2) + 1) * s = ofBase (2 * s.c0) := by
      rw [add_mul, hf]
      ext <;> simp [conj, ofBase]
      ring
    have h2 : ¬ IsSquare (2 : K) := fun ⟨y, e⟩ => IsFp.two_not_sq y (by rw [sq, e])
    rw [← mul_assoc, ← mul_pow, ht, ofBase_pow, mul_pow, euler_neg h2, euler_neg (h.1 h0)]
    ext <;> simp [ofBase]

theorem first_or (s : Fp2 K) : FirstNotSquare s ∨ FirstNotSquare (-s) := by
  have hq : ∀ x : K, (∃ y, y * y = x) ↔ IsSquare x := fun x => ⟨fun ⟨y, e⟩ => ⟨y, e.symm⟩, fun ⟨y, e⟩ => ⟨y, e.symm⟩⟩
  simp only [FirstNotSquare, hq, neg_c0, neg_c1, neg_eq_zero, Ne]
  by_cases h0 : s.c0 = 0
  · by_cases h1 : s.c1 = 0
    · simp [h0, h1]
    · by_cases h : IsSquare s.c1
      · exact Or.inr ⟨fun k => absurd h0 k, fun _ _ => FpC.neg_not_square h1 h⟩
      · exact Or.inl ⟨fun k => absurd h0 k, fun _ _ => h⟩
  · by_cases h : IsSquare s.c0
    · exact Or.inr ⟨fun _ => FpC.neg_not_square h0 h, fun k => absurd k h0⟩
    · exact Or.inl ⟨fun _ => h, fun k => absurd k h0⟩

theorem sqrt_which (x c : Fp2 K) : ((sqrt x).2 = true ∧ (sqrt x).1 = c) ↔ c * c = x ∧ FirstNotSquare c := by
  constructor
  · rintro ⟨h, rfl⟩
    refine ⟨sqrt_correct x h, ?_⟩
    obtain ⟨s, rfl⟩ := (sqrt_iff x).1 h
    rcases first_or s with hs | hs
    · rw [sqrt_mul_self hs]; exact hs
    · rw [← neg_mul_neg, sqrt_mul_self hs]; exact hs
  · rintro ⟨rfl, h⟩
    exact ⟨(sqrt_iff _).2 ⟨c, rfl⟩, sqrt_mul_self h⟩

theorem sqrt_fails (x : Fp2 K) (h : (sqrt x).2 = false) :
    x ^ ((p - 1) / 2) + 1 ≠ 0 ∧ (sqrt x).1 * (sqrt x).1 * (x ^ ((p - 1) / 2) + 1) = x * (x ^ ((p - 1) / 2) - 1) := by
  have hs : ¬ IsSquare x := fun hs => by rw [(sqrt_iff x).2 hs] at h; exact Bool.noConfusion h
  have hx : x ≠ 0 := fun e => hs (by rw [e]; exact ⟨0, (mul_zero 0).symm⟩)
  have hn : (x ^ ((p - 1) / 2)) ^ (p + 1) = -1 := by
    have h1 : (x ^ ((p - 1) / 2)) ^ (p + 1) * (x ^ ((p - 1) / 2)) ^ (p + 1) = 1 := by
      have e : (p - 1) / 2 * (p + 1) + (p - 1) / 2 * (p + 1) + 1 = p ^ 2 := by decide +kernel
      rw [← pow_mul, ← pow_add]
      apply mul_right_cancel₀ hx
      rw [← pow_succ, e, pow_p_pow, one_mul]
      simp [frob]
    rcases mul_self_eq_one_iff.1 h1 with h2 | h2
    · exact (hs ((sqrt_iff x).1 (sqrt_of_euler h2))).elim
    · exact h2
  rw [sqrt_unfold] at h ⊢
  by_cases ha : x ^ ((p - 1) / 2) = -1
  · rw [if_pos ha] at h
    exact Bool.noConfusion h
  · rw [if_neg ha]
    dsimp only
    refine ⟨fun e => ha (eq_neg_of_add_eq_zero_left e), ?_⟩
    rw [mul_mul_mul_comm, root_sq]
    generalize x ^ ((p - 1) / 2) = α at *
    have e1 : (p - 1) / 2 + (p - 1) / 2 + 1 = p := by decide +kernel
    have h2 : (α + 1) ^ ((p - 1) / 2) * (α + 1) ^ ((p - 1) / 2) * (α + 1) = α ^ p + 1 := by
      rw [← pow_add, ← pow_succ, e1, add_pow_char, one_pow]
    rw [pow_succ] at hn
    linear_combination α * x * h2 + x * hn

end Fp2

end Bls
