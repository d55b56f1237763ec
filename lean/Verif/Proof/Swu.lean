import Verif.Model.MapToCurve
import Verif.Spec.MapToCurve
import Verif.Spec.Lawful

/-! The SWU map computes the map of RFC 9380, over any field with the stated constants. -/

namespace Bls
open Rfc

/-- What the constants of a SWU map have to satisfy. -/
structure SwuGood {F : Type} [Field F] (params : SwuParams F) (A B Z : F) : Prop where
  z : params.z = Z
  a : params.a = A
  b : params.b = B
  zInv : params.zInv * Z = -1
  minusBOverA : params.minusBOverA * A = -B
  a0 : A ≠ 0
  nonsquare : ¬ IsSquare Z
  exceptional : IsSquare (cubic A B (params.zInv * params.minusBOverA))
  root : ∀ x, cubic A B x ≠ 0

/-- What the functions on the field have to satisfy. -/
structure SwuFns {F : Type} [Field F] (isQNR : F → Bool) (sqrt : F → F × Bool) (sign : F → Bool) (odd : F → Prop) :
    Prop where
  qnr (x : F) : isQNR x = true ↔ x = 0 ∨ ¬ IsSquare x
  sqrt (x : F) : IsSquare x → (sqrt x).1 * (sqrt x).1 = x
  sign (x : F) : sign x = true ↔ ¬ odd x
  sign_neg (x : F) : x ≠ 0 → (odd (-x) ↔ ¬ odd x)
  mul (a b : F) : ¬ IsSquare a → ¬ IsSquare b → IsSquare (a * b)

variable {F : Type} [Field F] [Ops F] [LawfulOps F] {params : SwuParams F} {A B Z : F} {isQNR : F → Bool}
  {sqrt : F → F × Bool} {sign : F → Bool} {odd : F → Prop}

open LawfulOps

theorem SwuGood.z0 (h : SwuGood params A B Z) : Z ≠ 0 := fun e => h.nonsquare (e ▸ IsSquare.zero)

/-- The first candidate. -/
def swuX1 [DecidableEq F] (params : SwuParams F) (w : F) : F :=
  (if w + w * w = 0 then params.zInv else (w + w * w)⁻¹ + 1) * params.minusBOverA

theorem swuX1_eq [DecidableEq F] (h : SwuGood params A B Z) (e : F) : swuX1 params (e * e * Z) =
    (if Z ^ 2 * e ^ 4 + Z * e ^ 2 = 0 then B / (Z * A) else -B / A * (1 + 1 / (Z ^ 2 * e ^ 4 + Z * e ^ 2))) := by
  have hz := h.z0
  have ha := h.a0
  have hw : e * e * Z + e * e * Z * (e * e * Z) = Z ^ 2 * e ^ 4 + Z * e ^ 2 := by ring
  have hm : params.minusBOverA = -B / A := by rw [eq_div_iff ha, h.minusBOverA]
  have hi : params.zInv = -1 / Z := by rw [eq_div_iff hz, h.zInv]
  rw [swuX1, hw, hm, hi]
  split
  · field_simp
  · rw [one_div, add_comm, mul_comm]

theorem sswu_x [DecidableEq F] (h : SwuGood params A B Z) {e x y : F} (hs : IsSswu A B Z odd e x y) :
    (IsSquare (cubic A B (swuX1 params (e * e * Z))) ∧ x = swuX1 params (e * e * Z)) ∨
    (¬ IsSquare (cubic A B (swuX1 params (e * e * Z))) ∧ x = Z * e ^ 2 * swuX1 params (e * e * Z)) := by
  have hx := hs.1
  have e1 := swuX1_eq h e
  by_cases ht : Z ^ 2 * e ^ 4 + Z * e ^ 2 = 0
  · rw [if_pos ht] at hx e1
    rw [← e1] at hx
    by_cases hq : IsSquare (cubic A B (swuX1 params (e * e * Z)))
    · exact Or.inl ⟨hq, by rwa [if_pos hq] at hx⟩
    · exact Or.inr ⟨hq, by rwa [if_neg hq] at hx⟩
  · rw [if_neg ht] at hx e1
    rw [← e1] at hx
    by_cases hq : IsSquare (cubic A B (swuX1 params (e * e * Z)))
    · exact Or.inl ⟨hq, by rwa [if_pos hq] at hx⟩
    · exact Or.inr ⟨hq, by rwa [if_neg hq] at hx⟩

/-- The second candidate is on the curve when the first is not. -/
theorem cubic_x2 {w x1 : F} (h : A ≠ 0) (hw : w + w * w ≠ 0) (hx : x1 = ((w + w * w)⁻¹ + 1) * (-B / A)) :
    cubic A B (w * x1) = cubic A B x1 * (w * (w * w)) := by
  have h1 : x1 * A * (w + w * w) = -B * (1 + (w + w * w)) := by
    have hA : -B / A * A = -B := div_mul_cancel₀ _ h
    have hi : (w + w * w)⁻¹ * (w + w * w) = 1 := inv_mul_cancel₀ hw
    rw [hx]
    linear_combination ((w + w * w)⁻¹ + 1) * (w + w * w) * hA - B * hi
  rw [cubic, cubic]
  have hw0 : w ≠ 0 := fun e => hw (by rw [e]; ring)
  have hw1 : 1 + w ≠ 0 := fun e => hw (by linear_combination w * e)
  have : A * x1 * w * (1 - w * w) = -B * (1 - w * w * w) := by
    linear_combination (1 - w) * h1
  linear_combination this

theorem swuMap_spec (h : SwuGood params A B Z) (hf : SwuFns isQNR sqrt sign odd) (e : F) :
    IsSswu A B Z odd e (swuMap params isQNR sqrt sign e).1 (swuMap params isQNR sqrt sign e).2 := by
  classical
  simp only [IsSswu]
  rw [← swuX1_eq h]
  have hx1 : (if Ops.isZero (Ops.inv (Ops.add (Ops.mul (Ops.sqr e) params.z) (Ops.sqr (Ops.mul (Ops.sqr e) params.z))))
      then params.zInv else Ops.add (Ops.inv (Ops.add (Ops.mul (Ops.sqr e) params.z)
        (Ops.sqr (Ops.mul (Ops.sqr e) params.z)))) Ops.one) * params.minusBOverA = swuX1 params (e * e * Z) := by
    rw [swuX1]
    congr 1
    simp only [sqr_eq, mul_eq, add_eq, inv_eq, one_eq, h.z]
    by_cases hc : e * e * Z + e * e * Z * (e * e * Z) = 0
    · rw [if_pos hc, if_pos]
      rw [hc, inv_zero]; exact (isZero_iff (0 : F)).2 rfl
    · rw [if_neg hc, if_neg]
      rw [isZero_iff]; exact inv_ne_zero hc
  unfold swuMap
  simp only [mul_eq (F := F) (ite _ _ _) _, hx1]
  simp only [sqr_eq, mul_eq, add_eq, neg_eq, h.a, h.b, h.z]
  generalize hX : swuX1 params (e * e * Z) = x1
  have hg : (x1 * x1 + A) * x1 + B = cubic A B x1 := by rw [cubic]; ring
  rw [hg]
  have hsq : (!isQNR (cubic A B x1)) = decide (IsSquare (cubic A B x1)) := by
    rw [Bool.eq_iff_iff, Bool.not_eq_true', decide_eq_true_iff, ← Bool.not_eq_true, hf.qnr, not_or, not_not]
    exact ⟨fun h => h.2, fun hh => ⟨h.root _, hh⟩⟩
  rw [hsq]
  simp only [decide_eq_true_eq]
  have hw : Z * e ^ 2 * x1 = e * e * Z * x1 := by ring
  rw [hw]
  refine ⟨rfl, ?_⟩
  have key : IsSquare (if IsSquare (cubic A B x1) then cubic A B x1
        else cubic A B x1 * (e * e * Z * (e * e * Z * (e * e * Z)))) ∧
      (if IsSquare (cubic A B x1) then cubic A B x1
        else cubic A B x1 * (e * e * Z * (e * e * Z * (e * e * Z)))) =
      cubic A B (if IsSquare (cubic A B x1) then x1 else e * e * Z * x1) := by
    split
    · exact ⟨by assumption, rfl⟩
    · rename_i hn
      have ht : e * e * Z + e * e * Z * (e * e * Z) ≠ 0 := by
        intro ht
        rw [swuX1, if_pos ht] at hX
        exact hn (hX ▸ h.exceptional)
      rw [swuX1, if_neg ht] at hX
      have hm : params.minusBOverA = -B / A := by rw [eq_div_iff h.a0, h.minusBOverA]
      rw [hm] at hX
      refine ⟨?_, (cubic_x2 h.a0 ht hX.symm).symm⟩
      obtain ⟨r, hr⟩ := hf.mul _ _ hn h.nonsquare
      refine ⟨r * (Z * e ^ 3), ?_⟩
      linear_combination (Z * e ^ 3) ^ 2 * hr
  obtain ⟨k1, k2⟩ := key
  rw [← k2]
  generalize (if IsSquare (cubic A B x1) then cubic A B x1
        else cubic A B x1 * (e * e * Z * (e * e * Z * (e * e * Z)))) = y2 at k1 k2 ⊢
  have hy := hf.sqrt _ k1
  have hy0 : (sqrt y2).1 ≠ 0 := by
    intro h0
    rw [h0, zero_mul] at hy
    exact h.root _ (k2 ▸ hy.symm)
  generalize (sqrt y2).1 = y0 at hy hy0
  have s1 := hf.sign y0
  have s2 := hf.sign e
  have s3 := hf.sign_neg y0 hy0
  rcases Bool.eq_false_or_eq_true (sign y0) with b1 | b1 <;> rcases Bool.eq_false_or_eq_true (sign e) with b2 | b2 <;>
    rw [b1] at s1 ⊢ <;> rw [b2] at s2 ⊢ <;> simp at s1 s2 ⊢ <;>
    exact ⟨by rw [← hy]; ring, by tauto⟩

omit [Ops F] [LawfulOps F] in
/-- The relation determines the point. -/
theorem sswu_unique (hroot : ∀ x, cubic A B x ≠ 0) (hneg : ∀ x : F, x ≠ 0 → (odd (-x) ↔ ¬ odd x)) {e x y x' y' : F}
    (h : IsSswu A B Z odd e x y) (h' : IsSswu A B Z odd e x' y') : x = x' ∧ y = y' := by
  have hx : x = x' := h.1.trans h'.1.symm
  subst hx
  refine ⟨rfl, ?_⟩
  have e1 := h.2.1
  have e2 := h'.2.1
  have h5 : (y - y') * (y + y') = 0 := by linear_combination e1 - e2
  rcases mul_eq_zero.1 h5 with h6 | h6
  · exact sub_eq_zero.1 h6
  · have hy : y = -y' := eq_neg_of_add_eq_zero_left h6
    have hy0 : y' ≠ 0 := by
      rintro rfl
      exact hroot x (by rw [← e2]; ring)
    have := hneg y' hy0
    rw [← hy] at this
    have h7 := h.2.2
    have h8 := h'.2.2
    tauto

end Bls
