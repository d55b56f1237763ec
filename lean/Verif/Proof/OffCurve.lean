import Verif.Proof.Groups

/-!
# Points that are not on the curve

The formulas of the program do not contain the constant of the curve. On a triple with `y² ≠ x³` they compute in the
group of the curve `y² = x³ + c` through that point; on the cusp `y² = x³` they compute in the additive group of the
field.
-/

namespace Bls.Jac

open WeierstrassCurve.Affine

section

variable {F : Type} [Field F]

/-- A triple on the cusp `y² = x³` with the parameter `t = x / y`: infinity for `t = 0`. -/
def Cusp (a : Jac F) (t : F) : Prop :=
  (a.z = 0 ∧ t = 0) ∨ (t ≠ 0 ∧ ∃ u : F, u ≠ 0 ∧ a.x = u ^ 2 ∧ a.y = u ^ 3 ∧ a.z = t * u)

variable [Ops F] [LawfulOps F] [DecidableEq F]

omit [DecidableEq F] in
theorem Cusp.dbl (h2 : (2 : F) ≠ 0) {a : Jac F} {t : F} (h : Cusp a t) : Cusp a.dbl (t + t) := by
  unfold Jac.dbl
  rcases h with ⟨hz, ht⟩ | ⟨ht, u, hu, hx, hy, hz⟩
  · rw [if_pos (Jac.isZero_iff.2 hz)]
    exact Or.inl ⟨hz, by rw [ht, add_zero]⟩
  · have h0 : ¬ a.isZero = true := by rw [Jac.isZero_iff, hz]; exact mul_ne_zero ht hu
    rw [if_neg h0]
    refine Or.inr ⟨by rw [← two_mul]; exact mul_ne_zero h2 ht, u ^ 4, pow_ne_zero _ hu, ?_, ?_, ?_⟩
    all_goals simp only [ops_eq, hx, hy, hz]; ring

theorem Cusp.add (h2 : (2 : F) ≠ 0) {a e : Jac F} {t s : F} (h : Cusp a t) (h' : Cusp e s) : Cusp (a.add e) (t + s) := by
  have hd := h.dbl h2
  unfold Jac.add
  rcases h with ⟨hz, ht⟩ | ⟨ht, u, hu, hx, hy, hz⟩
  · rw [if_pos (Jac.isZero_iff.2 hz), ht, zero_add]
    exact h'
  · have h0 : ¬ a.isZero = true := by rw [Jac.isZero_iff, hz]; exact mul_ne_zero ht hu
    rw [if_neg h0]
    rcases h' with ⟨hz', ht'⟩ | ⟨ht', v, hv, hx', hy', hz'⟩
    · rw [if_pos (Jac.isZero_iff.2 hz'), ht', add_zero]
      exact Or.inr ⟨ht, u, hu, hx, hy, hz⟩
    · have h1 : ¬ e.isZero = true := by rw [Jac.isZero_iff, hz']; exact mul_ne_zero ht' hv
      rw [if_neg h1]
      simp only [LawfulOps.equal_iff, ops_eq, hx, hy, hz, hx', hy', hz']
      have huv : u * v ≠ 0 := mul_ne_zero hu hv
      by_cases hts : t ^ 2 = s ^ 2
      · rw [if_pos (by linear_combination u ^ 2 * v ^ 2 * hts)]
        by_cases hc : t = s
        · subst hc
          rw [if_pos (by ring)]
          exact hd
        · rw [if_neg]
          · left
            refine ⟨LawfulOps.zero_eq, ?_⟩
            have : (t - s) * (t + s) = 0 := by linear_combination hts
            exact (mul_eq_zero.1 this).resolve_left (sub_ne_zero.2 hc)
          · intro hh
            apply hc
            have e3 : t ^ 3 = s ^ 3 := by
              apply mul_right_cancel₀ (pow_ne_zero 3 huv)
              linear_combination hh
            apply mul_right_cancel₀ (pow_ne_zero 2 ht)
            linear_combination e3 - s * hts
      · rw [if_neg]
        · have hp : t + s ≠ 0 := fun h0 => hts (by linear_combination (t - s) * h0)
          have hm : t - s ≠ 0 := fun h0 => hts (by linear_combination (t + s) * h0)
          refine Or.inr ⟨hp, 2 * (u * v) ^ 3 * (t - s) * t * s, ?_, ?_, ?_, ?_⟩
          · exact mul_ne_zero (mul_ne_zero (mul_ne_zero (mul_ne_zero h2 (pow_ne_zero _ huv)) hm) ht) ht'
          all_goals ring
        · intro hh
          apply hts
          apply mul_right_cancel₀ (pow_ne_zero 2 huv)
          linear_combination hh

theorem Cusp.scaleLoop (h2 : (2 : F) ≠ 0) (s : List UInt64) (n : Nat) : ∀ (i : Nat) {q a : Jac F} {r t : F},
    Cusp q r → Cusp a t → Cusp (Jac.scaleLoop s n i q a) (r + ((wordsVal s / 2 ^ i % 2 ^ n : ℕ) : F) * t) := by
  induction n with
  | zero =>
    intro i q a r t hq _
    rw [pow_zero, Nat.mod_one, Nat.cast_zero, zero_mul, add_zero]
    exact hq
  | succ n ih =>
    intro i q a r t hq ha
    rw [Jac.scaleLoop]
    have e : wordsVal s / 2 ^ i % 2 ^ (n + 1) =
        (if (wordsVal s).testBit i then 1 else 0) + 2 * (wordsVal s / 2 ^ (i + 1) % 2 ^ n) := by
      rw [pow_succ 2 i, ← Nat.div_div_eq_div_mul, pow_succ' 2 n, Nat.mod_mul, Nat.testBit_eq_decide_div_mod_eq]
      have := Nat.mod_two_eq_zero_or_one (wordsVal s / 2 ^ i)
      rcases this with h | h <;> simp [h]
    have hd := ha.dbl h2
    rw [Scalar.bit_spec, e]
    by_cases hbit : (wordsVal s).testBit i = true
    · rw [if_pos hbit, if_pos hbit]
      have := ih (i + 1) (hq.add h2 ha) hd
      convert this using 1
      push_cast
      ring
    · rw [if_neg hbit, if_neg hbit]
      have := ih (i + 1) hq hd
      convert this using 1
      push_cast
      ring

/-- On the cusp `scale` multiplies the parameter by the integer of the words. -/
theorem Cusp.scale (h2 : (2 : F) ≠ 0) {a : Jac F} {t : F} (h : Cusp a t) (s : List UInt64) :
    Cusp (a.scale s) ((wordsVal s : F) * t) := by
  have h0 : Cusp (⟨Ops.zero, Ops.zero, Ops.zero⟩ : Jac F) 0 := Or.inl ⟨LawfulOps.zero_eq, rfl⟩
  have := Cusp.scaleLoop h2 s (Scalar.bitLength s) 0 h0 h
  rw [pow_zero, Nat.div_one, Scalar.bitLength_spec, Nat.mod_eq_of_lt (Nat.lt_size_self _), zero_add] at this
  rw [Jac.scale, Scalar.bitLength_spec]
  exact this

/-- Every triple with `y² ≠ x³` is a point of exactly one curve `y² = x³ + c` with `c ≠ 0`. -/
theorem exists_own (h2 : (2 : F) ≠ 0) (h3 : (3 : F) ≠ 0) {a : Jac F} (hz : a.z ≠ 0) (h : a.y ^ 2 ≠ a.x ^ 3) :
    ∃ c : F, c * a.z ^ 6 = a.y ^ 2 - a.x ^ 3 ∧ GoodCurve c ∧ ∃ P : (curve c).Point, P ≠ 0 ∧ a.Rep P := by
  have hz6 : a.z ^ 6 ≠ 0 := pow_ne_zero _ hz
  obtain ⟨c, hc⟩ : ∃ c : F, c * a.z ^ 6 = a.y ^ 2 - a.x ^ 3 := ⟨(a.y ^ 2 - a.x ^ 3) / a.z ^ 6, div_mul_cancel₀ _ hz6⟩
  have hg : GoodCurve c := ⟨h2, h3, fun h0 => h (by linear_combination -hc + a.z ^ 6 * h0)⟩
  refine ⟨c, hc, hg, ?_⟩
  have e : (a.y / a.z ^ 3) ^ 2 = (a.x / a.z ^ 2) ^ 3 + c := by
    field_simp
    linear_combination -hc
  refine ⟨Point.some _ _ (hg.nonsingular e), Point.some_ne_zero _, hz, ?_, ?_⟩
  · rw [div_mul_cancel₀ _ (pow_ne_zero _ hz)]
  · rw [div_mul_cancel₀ _ (pow_ne_zero _ hz)]

omit [Ops F] [LawfulOps F] [DecidableEq F] in
theorem own_unique {a : Jac F} {b c : F} (hz : a.z ≠ 0) (hc : c * a.z ^ 6 = a.y ^ 2 - a.x ^ 3)
    {Q : (curve b).Point} (hQ : a.Rep Q) : c = b := by
  match Q with
  | .zero => exact absurd hQ hz
  | .some x y hn =>
    have e := point_equation hn
    apply mul_right_cancel₀ (pow_ne_zero 6 hz)
    rw [hc, hQ.2.1, hQ.2.2]
    linear_combination a.z ^ 6 * e

/-- Everything that `exists_own` gives, with the test for the curve of the library. -/
theorem own_curve {b : F} (hb : GoodCurve b) (a : Jac F) (hz : a.z ≠ 0) (h : a.y ^ 2 ≠ a.x ^ 3) :
    ∃ c : F, c * a.z ^ 6 = a.y ^ 2 - a.x ^ 3 ∧ c ≠ 0 ∧ (a.isOnCurve b = true ↔ c = b) ∧
      ∃ P : (curve c).Point, P ≠ 0 ∧ a.Rep P ∧
        (∀ s : List UInt64, (a.scale s).Rep (wordsVal s • P)) ∧
        (∀ (e : Jac F) (Q : (curve c).Point), e.Rep Q → (a.add e).Rep (P + Q) ∧ (a.subtract e).Rep (P - Q) ∧
          (a.equal e = true ↔ P = Q)) ∧
        a.dbl.Rep (2 • P) ∧ a.negate.Rep (-P) ∧ a.affine.Rep P := by
  obtain ⟨c, hc, hg, P, h0, hP⟩ := exists_own hb.two hb.three hz h
  refine ⟨c, hc, hg.const, ?_, P, h0, hP, fun s => scale_rep hg hP s, fun e Q he => ⟨add_rep hg hP he,
    sub_rep hg hP he, equal_iff hP he⟩, ?_, neg_rep hP, affine_rep hP⟩
  · rw [isOnCurve_iff hb]
    constructor
    · rintro ⟨Q, hQ⟩
      exact own_unique hz hc hQ
    · rintro rfl
      exact ⟨P, hP⟩
  · rw [two_nsmul]; exact dbl_rep hP

omit [Ops F] [LawfulOps F] [DecidableEq F] in
theorem Cusp.of {a : Jac F} (hz : a.z ≠ 0) (hy : a.y ≠ 0) (h : a.y ^ 2 = a.x ^ 3) : Cusp a (a.x * a.z / a.y) := by
  have hx : a.x ≠ 0 := fun h0 => hy (by rw [h0] at h; simpa using h)
  refine Or.inr ⟨div_ne_zero (mul_ne_zero hx hz) hy, a.y / a.x, div_ne_zero hy hx, ?_, ?_, ?_⟩
  · field_simp
    linear_combination -h
  · field_simp
    linear_combination -h
  · field_simp

omit [Ops F] [LawfulOps F] [DecidableEq F] in
theorem Cusp.elim {a : Jac F} {t : F} (h : Cusp a t) (ht : t ≠ 0) :
    a.z ≠ 0 ∧ a.y ≠ 0 ∧ a.y ^ 2 = a.x ^ 3 ∧ a.x * a.z / a.y = t := by
  rcases h with ⟨_, h0⟩ | ⟨_, u, hu, hx, hy, hz⟩
  · exact absurd h0 ht
  · rw [hx, hy, hz]
    refine ⟨mul_ne_zero ht hu, pow_ne_zero _ hu, by ring, ?_⟩
    field_simp

/-- A triple with `y = 0` has order two. -/
theorem scale_order_two (h2 : (2 : F) ≠ 0) (h3 : (3 : F) ≠ 0) {a : Jac F} (hz : a.z ≠ 0) (hx : a.x ≠ 0) (hy : a.y = 0)
    (s : List UInt64) : (a.scale s).isZero = true ↔ Even (wordsVal s) := by
  obtain ⟨c, -, hg, P, h0, hP⟩ := exists_own h2 h3 hz (by rw [hy]; intro h; exact pow_ne_zero 3 hx (by rw [← h]; ring))
  have h2P : 2 • P = 0 := by
    have hd := dbl_rep hP
    rw [← two_nsmul] at hd
    rw [← hd.z_iff]
    unfold dbl
    have hn : ¬ a.isZero = true := by rw [Jac.isZero_iff]; exact hz
    rw [if_neg hn]
    simp only [ops_eq, hy]
    ring
  rw [(scale_rep hg hP s).isZero_iff]
  generalize wordsVal s = k
  rcases Nat.even_or_odd' k with ⟨m, rfl | rfl⟩
  · rw [mul_comm, mul_smul, h2P, smul_zero]
    exact ⟨fun _ => ⟨m, by ring⟩, fun _ => rfl⟩
  · rw [add_smul, mul_comm, mul_smul, h2P, smul_zero, zero_add, one_smul]
    exact ⟨fun h => absurd h h0, fun h => absurd h (by simp)⟩

end

section

variable {K : Type} [Field K] [FpOps K] [LawfulFp K] [DecidableEq K]

theorem cusp_scale (a : Jac K) (hz : a.z ≠ 0) (hy : a.y ≠ 0) (h : a.y ^ 2 = a.x ^ 3) (s : List UInt64)
    (hs : (wordsVal s : K) ≠ 0) :
    (a.scale s).z ≠ 0 ∧ (a.scale s).y ≠ 0 ∧ (a.scale s).y ^ 2 = (a.scale s).x ^ 3 ∧
      (a.scale s).x * (a.scale s).z / (a.scale s).y = wordsVal s * (a.x * a.z / a.y) := by
  refine ((Cusp.of hz hy h).scale (goodCurve1 K).two s).elim (mul_ne_zero hs ?_)
  have hx : a.x ≠ 0 := fun h0 => hy (by rw [h0] at h; simpa using h)
  exact div_ne_zero (mul_ne_zero hx hz) hy

/-- The key in the multiple of `(1, 1, 1)`, computed with the operations of the program. -/
theorem key_read (s : List UInt64) (h0 : 0 < wordsVal s) (hp : wordsVal s < p) :
    (FpOps.fromMont (Ops.mul (Ops.mul ((⟨Ops.one, Ops.one, Ops.one⟩ : Jac K).scale s).x
      ((⟨Ops.one, Ops.one, Ops.one⟩ : Jac K).scale s).z)
      (Ops.inv ((⟨Ops.one, Ops.one, Ops.one⟩ : Jac K).scale s).y))).val = wordsVal s := by
  have hs : (wordsVal s : K) ≠ 0 := by
    rw [Ne, IsFp.natCast_eq_zero_iff, Nat.mod_eq_of_lt hp]; omega
  simp only [ops_eq]
  obtain ⟨-, -, -, h⟩ := cusp_scale (⟨1, 1, 1⟩ : Jac K) one_ne_zero one_ne_zero (by ring) s hs
  rw [← div_eq_mul_inv, h]
  have e : ((1 : K) * 1 / 1) = 1 := by norm_num
  rw [e, mul_one]
  have h1 := LawfulFp.fromMont_cast (wordsVal s : K)
  rw [IsFp.natCast_eq_iff, Nat.mod_eq_of_lt (LawfulFp.fromMont_lt _), Nat.mod_eq_of_lt hp] at h1
  exact h1

end

end Bls.Jac
