import Verif.Spec.Point
import Verif.Spec.Lawful
import Verif.Proof.Curve
import Verif.Proof.Ops
import Verif.Proof.Bytes

/-! The point operations of the program compute in Mathlib's group of points. -/

namespace Bls

open WeierstrassCurve.Affine

section

variable {F : Type} [Field F] {b : F}

theorem GoodCurve.nonsingular (hb : GoodCurve b) {x y : F} (h : y ^ 2 = x ^ 3 + b) :
    (curve b).Nonsingular x y := by
  by_cases hy : y = 0
  · rw [nonsingular_iff', equation_iff]
    refine ⟨by rw [h]; ring, Or.inl ?_⟩
    have hx : x ≠ 0 := by
      rintro rfl
      apply hb.const
      rw [hy] at h
      linear_combination -h
    have : 3 * x ^ 2 ≠ 0 := mul_ne_zero hb.three (pow_ne_zero _ hx)
    simpa [curveAB, hy] using this
  · exact nonsingular_of (by rw [h]; ring) (mul_ne_zero hb.two hy)

theorem point_equation {x y : F} (h : (curve b).Nonsingular x y) : y ^ 2 = x ^ 3 + b := by
  have := equation_iff.1 h.1
  rw [this]; ring

namespace Jac

theorem rep_zero_iff {a : Jac F} : a.Rep (0 : (curve b).Point) ↔ a.z = 0 := Iff.rfl

theorem rep_some_iff {a : Jac F} {x y : F} {h : (curve b).Nonsingular x y} :
    a.Rep (Point.some x y h) ↔ a.z ≠ 0 ∧ a.x = x * a.z ^ 2 ∧ a.y = y * a.z ^ 3 := Iff.rfl

theorem Rep.z_iff {a : Jac F} {P : (curve b).Point} (h : a.Rep P) : a.z = 0 ↔ P = 0 := by
  match P with
  | .zero => exact ⟨fun _ => rfl, fun _ => h⟩
  | .some x y hn => exact ⟨fun h0 => absurd h0 h.1, fun h0 => by cases h0⟩

/-- A triple represents at most one point. -/
theorem Rep.unique {a : Jac F} {P Q : (curve b).Point} (h : a.Rep P) (h' : a.Rep Q) : P = Q := by
  match P, Q with
  | .zero, .zero => rfl
  | .zero, .some x y hn => exact absurd h h'.1
  | .some x y hn, .zero => exact absurd h' h.1
  | .some x y hn, .some x' y' hn' =>
    have hx : x = x' := mul_right_cancel₀ (pow_ne_zero 2 h.1) (h.2.1.symm.trans h'.2.1)
    have hy : y = y' := mul_right_cancel₀ (pow_ne_zero 3 h.1) (h.2.2.symm.trans h'.2.2)
    subst hx hy; rfl

/-- Every point has coordinates. -/
theorem exists_rep (P : (curve b).Point) : ∃ a : Jac F, a.Rep P := by
  match P with
  | .zero => exact ⟨⟨0, 1, 0⟩, rfl⟩
  | .some x y h => exact ⟨⟨x, y, 1⟩, one_ne_zero, by simp, by simp⟩

/-- A finite point has several triples. -/
theorem two_reps (hb : GoodCurve b) (P : (curve b).Point) (hP : P ≠ 0) :
    ∃ (a e : Jac F) (P : (curve b).Point), a ≠ e ∧ P ≠ 0 ∧ a.Rep P ∧ e.Rep P := by
  match P with
  | .zero => exact absurd rfl hP
  | .some x y h =>
    refine ⟨⟨x, y, 1⟩, ⟨x * 2 ^ 2, y * 2 ^ 3, 2⟩, .some x y h, ?_, hP, ⟨one_ne_zero, by simp, by simp⟩,
      ⟨hb.two, rfl, rfl⟩⟩
    intro h1
    have h2 := congrArg Jac.z h1
    simp only at h2
    exact one_ne_zero (α := F) (by linear_combination -h2)

theorem Rep.neg_aux {a : Jac F} {P : (curve b).Point} (h : a.Rep P) : (⟨a.x, -a.y, a.z⟩ : Jac F).Rep (-P) := by
  match P with
  | .zero => exact h
  | .some x y hn =>
    rw [Point.neg_some, rep_some_iff, negY_curve]
    refine ⟨h.1, h.2.1, ?_⟩
    change -a.y = _
    rw [h.2.2]; ring

end Jac

end

namespace Jac

variable {F : Type} [Field F] [Ops F] [LawfulOps F] {b : F}

theorem isZero_iff {a : Jac F} : a.isZero = true ↔ a.z = 0 := LawfulOps.isZero_iff _

theorem isZero_false {a : Jac F} : a.isZero = false ↔ a.z ≠ 0 := Ops.isZero_false

theorem zero_rep : (zero : Jac F).Rep (0 : (curve b).Point) := LawfulOps.zero_eq

theorem Rep.isZero_iff {a : Jac F} {P : (curve b).Point} (h : a.Rep P) : a.isZero = true ↔ P = 0 := by
  rw [Jac.isZero_iff, h.z_iff]

theorem isOnCurve_iff (hb : GoodCurve b) (a : Jac F) :
    a.isOnCurve b = true ↔ ∃ P : (curve b).Point, a.Rep P := by
  unfold isOnCurve
  by_cases hz : a.z = 0
  · rw [if_pos (Jac.isZero_iff.2 hz)]
    exact ⟨fun _ => ⟨0, hz⟩, fun _ => rfl⟩
  · have h0 : ¬ a.isZero = true := by rw [Jac.isZero_iff]; exact hz
    rw [if_neg h0]
    simp only [LawfulOps.equal_iff, ops_eq]
    constructor
    · intro h
      have e : (a.y / a.z ^ 3) ^ 2 = (a.x / a.z ^ 2) ^ 3 + b := by
        field_simp
        linear_combination h
      refine ⟨Point.some _ _ (hb.nonsingular e), hz, ?_, ?_⟩
      · rw [div_mul_cancel₀ _ (pow_ne_zero _ hz)]
      · rw [div_mul_cancel₀ _ (pow_ne_zero _ hz)]
    · rintro ⟨P, hP⟩
      match P with
      | .zero => exact absurd hP hz
      | .some x y hn =>
        have e := point_equation hn
        rw [hP.2.1, hP.2.2]
        linear_combination a.z ^ 6 * e

theorem equal_iff {a c : Jac F} {P Q : (curve b).Point} (h : a.Rep P) (h' : c.Rep Q) :
    a.equal c = true ↔ P = Q := by
  unfold equal
  match P, Q with
  | .zero, Q =>
    rw [if_pos (h.isZero_iff.2 rfl), h'.isZero_iff]
    exact eq_comm
  | .some x y hn, .zero =>
    have h0 : ¬ a.isZero = true := by rw [Jac.isZero_iff]; exact h.1
    rw [if_neg h0, if_pos (h'.isZero_iff.2 rfl), h.isZero_iff]
    rfl
  | .some x y hn, .some x' y' hn' =>
    have h0 : ¬ a.isZero = true := by rw [Jac.isZero_iff]; exact h.1
    have h1 : ¬ c.isZero = true := by rw [Jac.isZero_iff]; exact h'.1
    rw [if_neg h0, if_neg h1]
    simp only [Bool.and_eq_true, LawfulOps.equal_iff, ops_eq]
    rw [h.2.1, h.2.2, h'.2.1, h'.2.2]
    have hz := h.1
    have hz' := h'.1
    rw [Point.some.injEq]
    constructor
    · rintro ⟨e1, e2⟩
      constructor
      · apply mul_right_cancel₀ (mul_ne_zero (pow_ne_zero 2 hz) (pow_ne_zero 2 hz'))
        linear_combination -e2
      · apply mul_right_cancel₀ (mul_ne_zero (pow_ne_zero 3 hz) (pow_ne_zero 3 hz'))
        linear_combination -e1
    · rintro ⟨rfl, rfl⟩
      constructor <;> ring

theorem affine_rep {a : Jac F} {P : (curve b).Point} (h : a.Rep P) : a.affine.Rep P := by
  unfold affine
  split_ifs with h0
  · exact h
  · simp only [Bool.or_eq_true, not_or] at h0
    match P with
    | .zero => exact absurd (h.isZero_iff.2 rfl) h0.1
    | .some x y hn =>
      have hz := h.1
      simp only [ops_eq]
      refine ⟨one_ne_zero, ?_, ?_⟩
      · change a.x * (a.z⁻¹ * a.z⁻¹) = x * 1 ^ 2
        rw [h.2.1]; field_simp
      · change a.y * (a.z⁻¹ * (a.z⁻¹ * a.z⁻¹)) = y * 1 ^ 3
        rw [h.2.2]; field_simp

/-- The affine form of a finite point is `(x, y, 1)`. -/
theorem affine_some {a : Jac F} {x y : F} {hn : (curve b).Nonsingular x y} (h : a.Rep (Point.some x y hn)) :
    a.affine = ⟨x, y, 1⟩ := by
  have h1 := affine_rep h
  have hz : a.affine.z = 1 := by
    unfold affine
    split_ifs with h0
    · have h2 : ¬ a.isZero = true := by rw [Jac.isZero_iff]; exact h.1
      exact (LawfulOps.isOne_iff _).1 ((Bool.or_eq_true_iff.1 h0).resolve_left h2)
    · exact LawfulOps.one_eq
  obtain ⟨-, hx, hy⟩ := h1
  rw [hz] at hx hy
  cases ha : a.affine with
  | mk x' y' z' =>
    rw [ha] at hx hy hz
    simp only [one_pow, mul_one] at hx hy hz
    rw [hx, hy, hz]

variable [DecidableEq F]

theorem dbl_rep {a : Jac F} {P : (curve b).Point} (h : a.Rep P) : a.dbl.Rep (P + P) := by
  unfold dbl
  match P with
  | .zero =>
    rw [if_pos (h.isZero_iff.2 rfl)]
    change a.Rep ((0 : (curve b).Point) + 0)
    rw [add_zero]; exact h
  | .some x y hn =>
    have h0 : ¬ a.isZero = true := by rw [Jac.isZero_iff]; exact h.1
    rw [if_neg h0]
    simp only [ops_eq]
    obtain ⟨hz, hx, hy⟩ := h
    rw [hx, hy]
    generalize a.z = z at *
    by_cases h2 : 2 * y = 0
    · have e : Point.some x y hn + Point.some x y hn = 0 := by
        apply Point.add_self_of_Y_eq
        rw [negY_curve]
        linear_combination h2
      rw [e, rep_zero_iff]
      linear_combination z ^ 4 * h2
    · obtain ⟨l, hl⟩ : ∃ l : F, l * (2 * y) = 3 * x ^ 2 + 0 := ⟨(3 * x ^ 2 + 0) / (2 * y), div_mul_cancel₀ _ h2⟩
      obtain ⟨h', e⟩ := dbl_affine hn h2 hl
      rw [e]
      refine ⟨?_, ?_, ?_⟩
      · change y * z ^ 3 * z + y * z ^ 3 * z ≠ 0
        have : y * z ^ 3 * z + y * z ^ 3 * z = 2 * y * z ^ 4 := by ring
        rw [this]
        exact mul_ne_zero h2 (pow_ne_zero _ hz)
      · linear_combination (-(z ^ 8 * (l * (2 * y) + 3 * x ^ 2))) * hl
      · linear_combination (-(8 * y ^ 3 * z ^ 12) * (0 : F)) * hl +
          (-(z ^ 12 * (4 * y ^ 2 * (x - (l ^ 2 - 2 * x)) - 3 * x ^ 2 * (l * (2 * y) + 3 * x ^ 2)))) * hl

theorem neg_rep {a : Jac F} {P : (curve b).Point} (h : a.Rep P) : a.negate.Rep (-P) := by
  have := h.neg_aux
  rwa [← LawfulOps.neg_eq] at this

theorem add_rep (hb : GoodCurve b) {a e : Jac F} {P Q : (curve b).Point} (h : a.Rep P) (h' : e.Rep Q) :
    (a.add e).Rep (P + Q) := by
  unfold add
  match P, Q with
  | .zero, Q =>
    rw [if_pos (h.isZero_iff.2 rfl)]
    change e.Rep (0 + Q)
    rw [zero_add]; exact h'
  | .some x y hn, .zero =>
    have h0 : ¬ a.isZero = true := by rw [Jac.isZero_iff]; exact h.1
    rw [if_neg h0, if_pos (h'.isZero_iff.2 rfl)]
    change a.Rep (Point.some x y hn + 0)
    rw [add_zero]; exact h
  | .some x y hn, .some x' y' hn' =>
    have h0 : ¬ a.isZero = true := by rw [Jac.isZero_iff]; exact h.1
    have h1 : ¬ e.isZero = true := by rw [Jac.isZero_iff]; exact h'.1
    rw [if_neg h0, if_neg h1]
    have hdbl := dbl_rep h
    simp only [LawfulOps.equal_iff, ops_eq]
    have hz := h.1
    have hz' := h'.1
    by_cases hx : x = x'
    · subst hx
      rw [if_pos (by rw [h.2.1, h'.2.1]; ring)]
      by_cases hy : y = y'
      · subst hy
        rw [if_pos (by rw [h.2.2, h'.2.2]; ring)]
        exact hdbl
      · rw [if_neg]
        · have e : Point.some x y hn + Point.some x y' hn' = 0 := by
            apply Point.add_of_Y_eq rfl
            rw [negY_curve]
            have e1 := point_equation hn
            have e2 := point_equation hn'
            have : (y - y') * (y + y') = 0 := by linear_combination e1 - e2
            have := (mul_eq_zero.1 this).resolve_left (sub_ne_zero.2 hy)
            linear_combination this
          rw [e]
          exact zero_rep
        · rw [h.2.2, h'.2.2]
          intro hh
          apply hy
          apply mul_right_cancel₀ (mul_ne_zero (pow_ne_zero 3 hz) (pow_ne_zero 3 hz'))
          linear_combination -hh
    · rw [if_neg]
      · obtain ⟨l, hl⟩ : ∃ l : F, l * (x - x') = y - y' :=
          ⟨(y - y') / (x - x'), div_mul_cancel₀ _ (sub_ne_zero.2 hx)⟩
        obtain ⟨hs, hsum⟩ := add_affine hn hn' hx hl
        rw [hsum]
        obtain ⟨-, hx1, hy1⟩ := h
        obtain ⟨-, hx2, hy2⟩ := h'
        rw [hx1, hy1, hx2, hy2]
        generalize a.z = z at *
        generalize e.z = w at *
        refine ⟨?_, ?_, ?_⟩
        · have : ((z + w) * (z + w) - z * z - w * w) * (x' * w ^ 2 * (z * z) - x * z ^ 2 * (w * w)) =
              2 * (z ^ 3 * w ^ 3) * (x' - x) := by ring
          change ((z + w) * (z + w) - z * z - w * w) * (x' * w ^ 2 * (z * z) - x * z ^ 2 * (w * w)) ≠ 0
          rw [this]
          exact mul_ne_zero (mul_ne_zero hb.two (mul_ne_zero (pow_ne_zero _ hz) (pow_ne_zero _ hz')))
            (sub_ne_zero.2 (Ne.symm hx))
        · linear_combination ((2 * (y' - y) * z ^ 3 * w ^ 3 + l * (2 * z ^ 3 * w ^ 3 * (x' - x))) *
            (2 * z ^ 3 * w ^ 3)) * hl
        · linear_combination (2 * z ^ 3 * w ^ 3 * (x * (2 * z ^ 3 * w ^ 3 * (x' - x)) ^ 2 -
              ((2 * (y' - y) * z ^ 3 * w ^ 3) ^ 2 - (2 * z ^ 3 * w ^ 3 * (x' - x)) ^ 2 * (x + x'))) -
            l * (2 * z ^ 3 * w ^ 3 * (x' - x)) * (2 * (y' - y) * z ^ 3 * w ^ 3 +
              l * (2 * z ^ 3 * w ^ 3 * (x' - x))) * (2 * z ^ 3 * w ^ 3)) * hl
      · rw [h.2.1, h'.2.1]
        intro hh
        apply hx
        apply mul_right_cancel₀ (mul_ne_zero (pow_ne_zero 2 hz) (pow_ne_zero 2 hz'))
        linear_combination -hh

theorem sub_rep (hb : GoodCurve b) {a e : Jac F} {P Q : (curve b).Point} (h : a.Rep P) (h' : e.Rep Q) :
    (a.subtract e).Rep (P - Q) := by
  rw [sub_eq_add_neg]
  exact add_rep hb h (neg_rep h')

theorem scaleLoop_rep (hb : GoodCurve b) (s : List UInt64) (n : Nat) : ∀ (i : Nat) {q a : Jac F}
    {Q P : (curve b).Point}, q.Rep Q → a.Rep P →
    (scaleLoop s n i q a).Rep (Q + (wordsVal s / 2 ^ i % 2 ^ n) • P) := by
  induction n with
  | zero =>
    intro i q a Q P hq _
    rw [pow_zero, Nat.mod_one, zero_smul, add_zero]
    exact hq
  | succ n ih =>
    intro i q a Q P hq ha
    rw [scaleLoop]
    have e : wordsVal s / 2 ^ i % 2 ^ (n + 1) =
        (if (wordsVal s).testBit i then 1 else 0) + 2 * (wordsVal s / 2 ^ (i + 1) % 2 ^ n) := by
      rw [pow_succ 2 i, ← Nat.div_div_eq_div_mul, pow_succ' 2 n, Nat.mod_mul, Nat.testBit_eq_decide_div_mod_eq]
      have := Nat.mod_two_eq_zero_or_one (wordsVal s / 2 ^ i)
      rcases this with h | h <;> simp [h]
    have hdbl := dbl_rep ha
    rw [Scalar.bit_spec]
    by_cases hbit : (wordsVal s).testBit i = true
    · rw [if_pos hbit] at e ⊢
      have := ih (i + 1) (add_rep hb hq ha) hdbl
      rw [e]
      have h2 : Q + P + (wordsVal s / 2 ^ (i + 1) % 2 ^ n) • (P + P) =
          Q + (1 + 2 * (wordsVal s / 2 ^ (i + 1) % 2 ^ n)) • P := by
        rw [← two_nsmul, add_smul, one_smul, mul_comm, mul_smul, add_assoc]
      rwa [h2] at this
    · rw [if_neg hbit] at e ⊢
      have := ih (i + 1) hq hdbl
      rw [e]
      have h2 : Q + (wordsVal s / 2 ^ (i + 1) % 2 ^ n) • (P + P) =
          Q + (0 + 2 * (wordsVal s / 2 ^ (i + 1) % 2 ^ n)) • P := by
        rw [← two_nsmul, zero_add, mul_comm, mul_smul]
      rwa [h2] at this

/-- `scale` multiplies by the full integer value of the words. -/
theorem scale_rep (hb : GoodCurve b) {a : Jac F} {P : (curve b).Point} (h : a.Rep P) (s : List UInt64) :
    (a.scale s).Rep (wordsVal s • P) := by
  have h0 : (⟨Ops.zero, Ops.zero, Ops.zero⟩ : Jac F).Rep (0 : (curve b).Point) := LawfulOps.zero_eq
  have := scaleLoop_rep hb s (Scalar.bitLength s) 0 h0 h
  rw [pow_zero, Nat.div_one, Scalar.bitLength_spec, Nat.mod_eq_of_lt (Nat.lt_size_self _), zero_add] at this
  rw [scale, Scalar.bitLength_spec]
  exact this

/-! ### Weighted sums -/

theorem windowBits_le (n : Nat) : windowBits n ≤ 23 := by
  unfold windowBits; split_ifs <;> omega

theorem windowBits_pos (n : Nat) : 0 < windowBits n := by
  unfold windowBits; split_ifs <;> omega

theorem windowIndex_eq {c : Nat} (hc : c ≤ 23) (j : Nat) (s : List UInt64) :
    windowIndex c j s = wordsVal s / 2 ^ (c * j) % 2 ^ c := by
  rw [windowIndex, UInt64.toNat_and, UInt64.toNat_ofNat']
  have h2 : (2 : ℕ) ^ c ≤ 2 ^ 23 := Nat.pow_le_pow_right (by norm_num) hc
  rw [Nat.mod_eq_of_lt (by omega), Nat.and_comm, Nat.and_two_pow_sub_one_eq_mod, ← Scalar.rsh_spec]
  generalize Scalar.rsh s (c * j) = t
  cases t with
  | nil => rfl
  | cons w ws =>
    rw [List.getD_cons_zero, wordsVal]
    have : 2 ^ 64 = 2 ^ c * 2 ^ (64 - c) := by rw [← pow_add]; congr 1; omega
    rw [this, mul_assoc, Nat.add_mul_mod_self_left]

theorem windowIndex_lt {c : Nat} (hc : c ≤ 23) (j : Nat) (s : List UInt64) : windowIndex c j s < 2 ^ c := by
  rw [windowIndex_eq hc]; exact Nat.mod_lt _ (by positivity)

/-- `Σ (m + k) B_k`. -/
def wsum {A : Type*} [AddCommMonoid A] : Nat → List A → A
  | _, [] => 0
  | m, B :: Bs => m • B + wsum (m + 1) Bs

theorem wsum_succ {A : Type*} [AddCommMonoid A] (Bs : List A) : ∀ m, wsum (m + 1) Bs = wsum m Bs + Bs.sum := by
  induction Bs with
  | nil => intro m; simp [wsum]
  | cons B Bs ih =>
    intro m
    rw [wsum, wsum, ih (m + 1), List.sum_cons, add_smul, one_smul]
    abel

theorem wsum_zero {A : Type*} [AddCommMonoid A] (n : Nat) : ∀ m, wsum m (List.replicate n (0 : A)) = 0 := by
  induction n with
  | zero => intro m; rfl
  | succ n ih => intro m; rw [List.replicate_succ, wsum, ih, smul_zero, add_zero]

theorem wsum_modify {A : Type*} [AddCommMonoid A] (P : A) (Bs : List A) : ∀ (m i : Nat), i < Bs.length →
    wsum m (Bs.modify i (· + P)) = wsum m Bs + (m + i) • P := by
  induction Bs with
  | nil => intro m i hi; simp at hi
  | cons B Bs ih =>
    intro m i hi
    cases i with
    | zero =>
      rw [List.modify_zero_cons, wsum, wsum, smul_add, add_zero]
      abel
    | succ i =>
      rw [List.modify_succ_cons, wsum, wsum, ih (m + 1) i (by simpa using hi)]
      rw [show m + 1 + i = m + (i + 1) by omega]
      abel

theorem modify_rep {bs : List (Jac F)} {Bs : List (curve b).Point} (hb : GoodCurve b)
    (h : List.Forall₂ Rep bs Bs) {a : Jac F} {P : (curve b).Point} (ha : a.Rep P) : ∀ i : Nat,
    List.Forall₂ Rep (bs.modify i (fun c => c.add a)) (Bs.modify i (· + P)) := by
  induction h with
  | nil => intro i; simp
  | cons h1 _ ih =>
    intro i
    cases i with
    | zero =>
      rw [List.modify_zero_cons, List.modify_zero_cons]
      exact .cons (add_rep hb h1 ha) (by assumption)
    | succ i =>
      rw [List.modify_succ_cons, List.modify_succ_cons]
      exact .cons h1 (ih i)

theorem replicate_rep (n : Nat) :
    List.Forall₂ Rep (List.replicate n (zero : Jac F)) (List.replicate n (0 : (curve b).Point)) := by
  induction n with
  | zero => exact .nil
  | succ n ih => exact .cons zero_rep ih

/-- The pairs of points and scalars handled by the loops. -/
abbrev PairRep (ps : Jac F × List UInt64) (Ps : (curve b).Point × List UInt64) : Prop :=
  ps.1.Rep Ps.1 ∧ ps.2 = Ps.2

theorem fillBuckets_rep (hb : GoodCurve b) {c : Nat} (hc : c ≤ 23) (j : Nat)
    {pairs : List (Jac F × List UInt64)} {Ps : List ((curve b).Point × List UInt64)}
    (hp : List.Forall₂ PairRep pairs Ps) : ∀ {bs : List (Jac F)} {Bs : List (curve b).Point},
    List.Forall₂ Rep bs Bs → bs.length = 2 ^ c - 1 →
    ∃ Bs', List.Forall₂ Rep (fillBuckets c j pairs bs) Bs' ∧
      wsum 1 Bs' = wsum 1 Bs + (Ps.map fun p => (wordsVal p.2 / 2 ^ (c * j) % 2 ^ c) • p.1).sum := by
  induction hp with
  | nil =>
    intro bs Bs h _
    exact ⟨Bs, h, by simp⟩
  | @cons ps Pp _ _ h1 _ ih =>
    intro bs Bs h hlen
    rw [fillBuckets, List.foldl_cons, ← fillBuckets]
    have hidx : windowIndex c j ps.2 = wordsVal Pp.2 / 2 ^ (c * j) % 2 ^ c := by rw [windowIndex_eq hc, h1.2]
    by_cases h0 : windowIndex c j ps.2 = 0
    · rw [if_neg (not_not.2 h0)]
      obtain ⟨Bs', e1, e2⟩ := ih h hlen
      refine ⟨Bs', e1, ?_⟩
      rw [e2, List.map_cons, List.sum_cons, ← hidx, h0, zero_smul, zero_add]
    · rw [if_pos h0]
      obtain ⟨Bs', e1, e2⟩ := ih (modify_rep hb h h1.1 (windowIndex c j ps.2 - 1))
        (by rw [List.length_modify]; exact hlen)
      refine ⟨Bs', e1, ?_⟩
      have hlt := windowIndex_lt hc j ps.2
      rw [e2, wsum_modify, List.map_cons, List.sum_cons, ← hidx, add_assoc]
      · congr 3; omega
      · rw [← h.length_eq, hlen]; omega

theorem sumBuckets_aux (hb : GoodCurve b) {bs : List (Jac F)} {Bs : List (curve b).Point}
    (h : List.Forall₂ Rep bs Bs) :
    (bs.foldr (fun b (st : Jac F × Jac F) => (st.1.add (st.2.add b), st.2.add b)) (zero, zero)).1.Rep
        (wsum 1 Bs) ∧
      (bs.foldr (fun b (st : Jac F × Jac F) => (st.1.add (st.2.add b), st.2.add b)) (zero, zero)).2.Rep
        Bs.sum := by
  induction h with
  | nil => exact ⟨zero_rep, zero_rep⟩
  | @cons a A _ As h1 _ ih =>
    rw [List.foldr_cons]
    have hs := add_rep hb ih.2 h1
    refine ⟨?_, ?_⟩
    · have e : wsum 1 (A :: As) = wsum 1 As + (As.sum + A) := by
        rw [wsum, wsum_succ, one_smul]; abel
      rw [e]
      exact add_rep hb ih.1 hs
    · rw [List.sum_cons, add_comm]
      exact hs

theorem window_rep (hb : GoodCurve b) {c : Nat} (hc : c ≤ 23) (j : Nat)
    {pairs : List (Jac F × List UInt64)} {Ps : List ((curve b).Point × List UInt64)}
    (hp : List.Forall₂ PairRep pairs Ps) :
    (window c pairs j).Rep (Ps.map fun p => (wordsVal p.2 / 2 ^ (c * j) % 2 ^ c) • p.1).sum := by
  obtain ⟨Bs, h1, h2⟩ := fillBuckets_rep hb hc j hp (replicate_rep (2 ^ c - 1)) (List.length_replicate ..)
  have := (sumBuckets_aux hb h1).1
  rw [h2, wsum_zero, zero_add] at this
  exact this

theorem dblN_rep (n : Nat) : ∀ {a : Jac F} {P : (curve b).Point}, a.Rep P → (dblN n a).Rep (2 ^ n • P) := by
  induction n with
  | zero => intro a P h; rw [pow_zero, one_smul]; exact h
  | succ n ih =>
    intro a P h
    rw [dblN]
    have := ih (dbl_rep h)
    rwa [← two_nsmul, ← mul_smul, ← pow_succ] at this

theorem smul_sum_map {A B : Type*} [AddCommMonoid A] (n : Nat) (f : B → A) (l : List B) :
    n • (l.map f).sum = (l.map fun x => n • f x).sum := by
  induction l with
  | nil => simp
  | cons x l ih => rw [List.map_cons, List.map_cons, List.sum_cons, List.sum_cons, smul_add, ih]

theorem windows_rep (hb : GoodCurve b) {c : Nat} (hc : c ≤ 23)
    {pairs : List (Jac F × List UInt64)} {Ps : List ((curve b).Point × List UInt64)}
    (hp : List.Forall₂ PairRep pairs Ps) (n : Nat) : ∀ i : Nat,
    (((List.range' i n).map (window c pairs)).foldr (fun w acc => (dblN c acc).add w) zero).Rep
      (Ps.map fun p => (wordsVal p.2 / 2 ^ (c * i) % 2 ^ (c * n)) • p.1).sum := by
  induction n with
  | zero =>
    intro i
    have : (Ps.map fun p => (wordsVal p.2 / 2 ^ (c * i) % 2 ^ (c * 0)) • p.1).sum = 0 := by
      rw [mul_zero, pow_zero]
      simp [Nat.mod_one]
    rw [this]
    exact zero_rep
  | succ n ih =>
    intro i
    rw [List.range'_succ, List.map_cons, List.foldr_cons]
    have h1 := add_rep hb (dblN_rep c (ih (i + 1))) (window_rep hb hc i hp)
    convert h1 using 1
    rw [smul_sum_map, ← List.sum_map_add]
    congr 1
    apply List.map_congr_left
    intro p _
    rw [← mul_smul, ← add_smul]
    congr 1
    rw [mul_add, mul_one, mul_add, mul_one, pow_add, pow_add, ← Nat.div_div_eq_div_mul, mul_comm (2 ^ (c * n)),
      Nat.mod_mul, add_comm]

theorem pairs_rep {points : List (Jac F)} {Ps : List (curve b).Point} (h : List.Forall₂ Rep points Ps) :
    ∀ scalars : List (List UInt64), List.Forall₂ PairRep (points.zip scalars) (Ps.zip scalars) := by
  induction h with
  | nil => intro scalars; simp
  | cons h1 _ ih =>
    intro scalars
    cases scalars with
    | nil => simp
    | cons s ss => exact .cons ⟨h1, rfl⟩ (ih ss)

theorem weightedSum_rep (hb : GoodCurve b) {points : List (Jac F)} {Ps : List (curve b).Point}
    (h : List.Forall₂ Rep points Ps) (scalars : List (List UInt64)) (hs : ∀ s ∈ scalars, s.length = 4) :
    (weightedSum points scalars).Rep ((Ps.zip scalars).map fun p => wordsVal p.2 • p.1).sum := by
  rw [weightedSum]
  have hc := windowBits_le (points.zip scalars).length
  have hpos := windowBits_pos (points.zip scalars).length
  generalize windowBits (points.zip scalars).length = c at hc hpos
  have := windows_rep hb hc (pairs_rep h scalars) (255 / c + 1) 0
  rw [List.range_eq_range']
  convert this using 2
  apply List.map_congr_left
  intro p hp
  congr 1
  rw [mul_zero, pow_zero, Nat.div_one, Nat.mod_eq_of_lt]
  have h1 := wordsVal_lt p.2
  rw [hs p.2 (List.of_mem_zip hp).2] at h1
  refine h1.trans_le (Nat.pow_le_pow_right (by norm_num) ?_)
  have := Nat.lt_mul_div_succ 255 hpos
  omega

end Jac

end Bls
