import Verif.Proof.FpV
import Verif.Proof.FrobeniusExact
import Verif.Proof.Cyclotomic
import Verif.Proof.Roots

/-!
# C08-C11, C17-C21: fields

`FpV adx` is the type of canonical `fp` values running the x86-64 routines (`adx`: which multiplication was selected
at load time). Its field structure is that of the represented residues (`Proof/FpV.lean`), the structures on
`Fp2`, `Fp6`, `Fp12` are the schoolbook ones of `Spec/Tower.lean`.
-/

namespace Bls.Props
open Bls

/-! ## C08 -/

/-- C08: in terms of limbs. For every canonical nonzero element the inverse is canonical and the product is the
word array of one; the inverse of zero is zero. -/
theorem C08_inverse (adx : Bool) (x : Fp) (hx : x.Valid) :
    (x.inverse adx).Valid ∧ (x ≠ Fp.zero → X86.mul adx x (x.inverse adx) = Fp.R1) ∧
    (x = Fp.zero → x.inverse adx = Fp.zero) := by
  have hz : x ≠ Fp.zero → (x.val : ZMod p) * Rinv ≠ 0 := by
    intro hne h0
    have h1 := (Fp.rep_of_valid hx).2
    rw [h0, zero_mul, ZMod.natCast_eq_zero_iff] at h1
    have h2 := Nat.eq_zero_of_dvd_of_lt h1 hx
    exact hne (Fp.val_inj (h2.trans (by decide +kernel)))
  have h0 : x = Fp.zero → x.inverse adx = Fp.zero := by
    rintro rfl; exact Fp.inverse_zero adx (by decide +kernel)
  refine ⟨?_, fun hne => ?_, h0⟩
  · by_cases h : x = Fp.zero
    · rw [h0 h]; exact Fp.zero_rep.1
    · exact (Fp.inverse_rep adx (Fp.rep_of_valid hx) (hz h)).1
  · have hr := X86.rep_mul (adx := adx) (Fp.rep_of_valid hx) (Fp.inverse_rep adx (Fp.rep_of_valid hx) (hz hne))
    rw [mul_inv_cancel₀ (hz hne)] at hr
    exact hr.inj Fp.R1_rep

example : (⟨5, 0, 0, 0, 0, 7⟩ : Fp).Valid ∧ (⟨5, 0, 0, 0, 0, 7⟩ : Fp) ≠ Fp.zero := by decide +kernel

/-- C08: the same in the field of residues. -/
theorem C08_field (adx : Bool) (x : FpV adx) : Ops.inv x = x⁻¹ := LawfulOps.inv_eq x

/-! ## C09 -/

/-- C09: `exp` raises to the integer encoded by the words, for arrays of every length. -/
theorem C09_exp (adx : Bool) (s : List UInt64) :
    (∀ x : FpV adx, Ops.exp x s = x ^ wordsVal s) ∧ (∀ x : Fp2 (FpV adx), Ops.exp x s = x ^ wordsVal s) ∧
    (∀ x : Fp6 (FpV adx), Ops.exp x s = x ^ wordsVal s) ∧ (∀ x : Fp12 (FpV adx), Ops.exp x s = x ^ wordsVal s) :=
  ⟨fun x => Ops.exp_eq x s, fun x => Ops.exp_eq x s, fun x => Ops.exp_eq x s, fun x => Ops.exp_eq x s⟩

/-- The array encodes all naturals below `2^(64 N)`. -/
example : wordsVal [3, 0, 1] = 2 ^ 128 + 3 ∧ wordsVal [] = 0 := by decide +kernel

/-- C09: a zero exponent gives one, also for `x = 0` and for arrays of several zero words. -/
theorem C09_zero (adx : Bool) (n : ℕ) (x : FpV adx) : Ops.exp x (List.replicate n 0) = Ops.one := by
  rw [Ops.exp_eq, wordsVal_replicate, pow_zero, LawfulOps.one_eq]

/-! ## C10 -/

/-- C10: the flag says whether a root exists, and then the result is a root. -/
theorem C10_sqrt (adx : Bool) (x : FpV adx) : ((FpC.sqrt x).2 = true ↔ ∃ y, y * y = x) ∧
    ((FpC.sqrt x).2 = true → (FpC.sqrt x).1 * (FpC.sqrt x).1 = x) := by
  refine ⟨(FpC.sqrt_iff x).trans ⟨fun ⟨y, h⟩ => ⟨y, h.symm⟩, fun ⟨y, h⟩ => ⟨y, h.symm⟩⟩, FpC.sqrt_correct x⟩

/-- C10: `isQuadraticNonResidue` (true for zero). -/
theorem C10_nonresidue (adx : Bool) (x : FpV adx) :
    FpC.isQuadraticNonResidue x = true ↔ x = 0 ∨ ¬ ∃ y, y * y = x := by
  rw [FpC.isQNR_iff, IsSquare]
  simp only [eq_comm]

/-- Both outcomes occur: `4` is a square, `2` is not. -/
example (adx : Bool) : (∃ y : FpV adx, y * y = 4) ∧ ¬ ∃ y : FpV adx, y * y = 2 :=
  ⟨⟨2, by norm_num⟩, fun ⟨y, h⟩ => IsFp.two_not_sq y (by rw [sq, h])⟩

/-! ## C11 -/

theorem natCast_of_rep {adx : Bool} {x : FpV adx} {a : ZMod p} (h : x.1.Rep a) : x = ((a.val : ℕ) : FpV adx) := by
  apply FpV.toZ_inj
  rw [FpV.toZ_natCast, ZMod.natCast_val, ZMod.cast_id, FpV.toZ_eq h]

/-- C11: an element is lexicographically largest iff its residue exceeds `(p-1)/2`; `sign` tells even residues. -/
theorem C11_fp (adx : Bool) (x : FpV adx) (a : ZMod p) (h : x.1.Rep a) :
    FpC.lexLargest x = decide ((p - 1) / 2 < a.val) ∧ FpC.sign x = decide (a.val % 2 = 0) := by
  rw [natCast_of_rep h]
  exact ⟨FpC.lexLargest_natCast (ZMod.val_lt a), FpC.sign_natCast (ZMod.val_lt a)⟩

/-- C11: exactly one of `y`, `-y` is lexicographically largest, and exactly one has `sign`. -/
theorem C11_fp_one_of_two (adx : Bool) (x : FpV adx) (h : x ≠ 0) :
    FpC.lexLargest (Ops.neg x) = !FpC.lexLargest x ∧ FpC.sign (Ops.neg x) = !FpC.sign x := by
  have hx := x.rep_toZ
  have hn : (Ops.neg x).1.Rep (-x.toZ) := X86.rep_neg hx
  have h0 : x.toZ ≠ 0 := fun e => h (FpV.toZ_inj (by rw [e, FpV.toZ_zero]))
  rw [(C11_fp adx x _ hx).1, (C11_fp adx x _ hx).2, (C11_fp adx _ _ hn).1, (C11_fp adx _ _ hn).2,
    ZMod.neg_val, if_neg h0]
  have h1 : x.toZ.val ≠ 0 := fun e => h0 ((ZMod.val_eq_zero _).1 e)
  have h2 := ZMod.val_lt x.toZ
  have hp : p % 2 = 1 := by decide +kernel
  clear hx hn h h0
  generalize x.toZ.val = n at *
  revert hp h2
  generalize p = m
  intro hp h2
  rw [← decide_not, ← decide_not]
  constructor <;> congr 1 <;> apply propext <;> omega

/-- C11 for `fp2`: the imaginary part decides the order unless it is zero, the real part decides `sign` unless it
is zero. -/
theorem C11_fp2 (adx : Bool) (x : Fp2 (FpV adx)) (a b : ZMod p) (ha : x.c0.1.Rep a) (hb : x.c1.1.Rep b) :
    x.lexLargest = (if b = 0 then decide ((p - 1) / 2 < a.val) else decide ((p - 1) / 2 < b.val)) ∧
    x.sign = (if a = 0 then decide (b.val % 2 = 0) else decide (a.val % 2 = 0)) := by
  have hz : ∀ {y : FpV adx} {c : ZMod p}, y.1.Rep c → (Ops.isZero y = true ↔ c = 0) := by
    intro y c h
    rw [LawfulOps.isZero_iff, ← FpV.toZ_eq h]
    exact ⟨fun e => by rw [e, FpV.toZ_zero], fun e => FpV.toZ_inj (by rw [e, FpV.toZ_zero])⟩
  constructor
  · rw [Fp2.lexLargest, (C11_fp adx x.c0 a ha).1, (C11_fp adx x.c1 b hb).1]
    by_cases h : b = 0
    · rw [if_pos h, (hz hb).2 h, h]
      simp
    · rw [if_neg h, Bool.eq_false_iff.2 (fun e => h ((hz hb).1 e))]
      simp
  · have e0 : ((FpOps.fromMont x.c0).d0 &&& 1 == 0) = decide (a.val % 2 = 0) := (C11_fp adx x.c0 a ha).2
    have e1 : ((FpOps.fromMont x.c1).d0 &&& 1 == 0) = decide (b.val % 2 = 0) := (C11_fp adx x.c1 b hb).2
    rw [Fp2.sign, e0, e1]
    by_cases h : a = 0
    · rw [if_pos h, (hz ha).2 h]; simp
    · rw [if_neg h, Bool.eq_false_iff.2 (fun e => h ((hz ha).1 e))]; simp

/-- C11 for `fp2`: exactly one of `y`, `-y`. -/
theorem C11_fp2_one_of_two (adx : Bool) (x : Fp2 (FpV adx)) (h : x ≠ 0) :
    x.neg.lexLargest = !x.lexLargest ∧ x.neg.sign = !x.sign := by
  have hn : ∀ y : FpV adx, Ops.isZero (Ops.neg y) = Ops.isZero y := by
    intro y
    rw [Bool.eq_iff_iff, LawfulOps.isZero_iff, LawfulOps.isZero_iff, LawfulOps.neg_eq, neg_eq_zero]
  have hl0 : FpC.lexLargest (0 : FpV adx) = false := by
    rw [(C11_fp adx 0 0 FpV.rep_zero).1]; simp
  have n0 : Ops.neg (0 : FpV adx) = 0 := by rw [LawfulOps.neg_eq, neg_zero]
  have hne : x.c0 ≠ 0 ∨ x.c1 ≠ 0 := by
    by_contra hc
    rw [not_or, not_not, not_not] at hc
    exact h (Fp2.ext hc.1 hc.2)
  have z0 : Ops.isZero (0 : FpV adx) = true := (LawfulOps.isZero_iff _).2 rfl
  constructor
  · simp only [Fp2.lexLargest, Fp2.neg, hn]
    by_cases h1 : x.c1 = 0
    · have h0 := hne.resolve_right (not_not.2 h1)
      rw [h1, n0, hl0, z0, (C11_fp_one_of_two adx x.c0 h0).1]
      simp
    · rw [(C11_fp_one_of_two adx x.c1 h1).1, Ops.isZero_false.2 h1]
      simp
  · have s : ∀ y : FpV adx, ((FpOps.fromMont y).d0 &&& 1 == 0) = FpC.sign y := fun _ => rfl
    simp only [Fp2.sign, Fp2.neg, hn, s]
    by_cases h0 : x.c0 = 0
    · have h1 := hne.resolve_left (not_not.2 h0)
      rw [h0, z0, (C11_fp_one_of_two adx x.c1 h1).2]
      simp
    · rw [(C11_fp_one_of_two adx x.c0 h0).2, Ops.isZero_false.2 h0]
      simp

/-- The residues `p - 1` and `5`. -/
example (adx : Bool) : FpC.lexLargest ((p - 1 : ℕ) : FpV adx) = true ∧ FpC.sign ((p - 1 : ℕ) : FpV adx) = true ∧
    FpC.lexLargest ((5 : ℕ) : FpV adx) = false ∧ FpC.sign ((5 : ℕ) : FpV adx) = false := by
  have h := fun n : ℕ => C11_fp adx (n : FpV adx) (n : ZMod p) (FpV.toZ_natCast (adx := adx) n ▸ FpV.rep_toZ _)
  rw [(h _).1, (h _).2, (h _).1, (h _).2, ZMod.val_natCast, ZMod.val_natCast]
  decide +kernel

/-- `1` and `-1`. -/
example (adx : Bool) : FpC.lexLargest (Ops.neg (1 : FpV adx)) = !FpC.lexLargest (1 : FpV adx) ∧
    FpC.sign (Ops.neg (1 : FpV adx)) = !FpC.sign (1 : FpV adx) := C11_fp_one_of_two adx 1 one_ne_zero

/-- `(p - 1) + 5 u`: the imaginary part 5 decides the order, the real part the sign. -/
example (adx : Bool) : (⟨((p - 1 : ℕ) : FpV adx), ((5 : ℕ) : FpV adx)⟩ : Fp2 (FpV adx)).lexLargest = false ∧
    (⟨((p - 1 : ℕ) : FpV adx), ((5 : ℕ) : FpV adx)⟩ : Fp2 (FpV adx)).sign = true := by
  have h := fun n : ℕ => (FpV.toZ_natCast (adx := adx) n ▸ FpV.rep_toZ _ : ((n : FpV adx)).1.Rep (n : ZMod p))
  have e := C11_fp2 adx ⟨((p - 1 : ℕ) : FpV adx), ((5 : ℕ) : FpV adx)⟩ _ _ (h _) (h _)
  have h5 : ((5 : ℕ) : ZMod p) ≠ 0 := by rw [Ne, ZMod.natCast_eq_zero_iff]; decide +kernel
  have h1 : ((p - 1 : ℕ) : ZMod p) ≠ 0 := by rw [Ne, ZMod.natCast_eq_zero_iff]; decide +kernel
  rw [e.1, e.2, if_neg h5, if_neg h1, ZMod.val_natCast, ZMod.val_natCast]
  decide +kernel

example (adx : Bool) : (⟨1, 0⟩ : Fp2 (FpV adx)) ≠ 0 := fun h => one_ne_zero (congrArg Fp2.c0 h)

/-! ## C17 -/

/-- C17: the spec structure is `F_p[u]/(u²+1)`: a field, `u² = -1`, and every element is `c₀ + c₁u`. -/
theorem C17_structure (adx : Bool) : (⟨0, 1⟩ : Fp2 (FpV adx)) * ⟨0, 1⟩ = -1 ∧
    (∀ x : Fp2 (FpV adx), x = Fp2.ofBaseHom x.c0 + Fp2.ofBaseHom x.c1 * ⟨0, 1⟩) ∧ IsField (Fp2 (FpV adx)) := by
  refine ⟨by ext1 <;> simp, fun x => ?_, Field.toIsField _⟩
  ext1 <;> simp

/-- C17: every `fp2` operation is exact. -/
theorem C17_fp2 (adx : Bool) (x y : Fp2 (FpV adx)) (e : FpV adx) (k : ℕ) :
    x.add y = x + y ∧ x.sub y = x - y ∧ x.neg = -x ∧ x.dbl = 2 * x ∧ x.conjugate = ⟨x.c0, -x.c1⟩ ∧
    x.mul y = x * y ∧ x.sqr = x ^ 2 ∧ x.mulByNonResidue = x * ⟨1, 1⟩ ∧ x.mulByB = x * ⟨4, 4⟩ ∧
    x.mulByFq e = x * ⟨e, 0⟩ ∧ x.inv = x⁻¹ ∧ (x ≠ 0 → x.mul x.inv = 1) ∧ x.frobeniusMap k = x ^ p ^ k ∧
    x.conjugate = x ^ p := by
  have hB : (4 : Fp2 (FpV adx)) * Fp2.xi = ⟨4, 4⟩ := by
    have h4 : (4 : Fp2 (FpV adx)) = Fp2.ofBaseHom 4 := (map_ofNat Fp2.ofBaseHom 4).symm
    rw [h4]
    ext1 <;> simp [Fp2.xi]
  refine ⟨Fp2.add_eq x y, Fp2.sub_eq x y, Fp2.neg_eq x, by rw [Fp2.dbl_eq, two_mul], ?_, Fp2.mul_eq x y,
    by rw [Fp2.sqr_eq, sq], by rw [Fp2.mulByNonResidue_eq, mul_comm]; rfl, ?_, Fp2.mulByFq_eq x e,
    Fp2.inv_eq x, fun h => ?_, Fp2.frobeniusMap_eq x k, ?_⟩
  · ext1
    · rfl
    · exact Fp2.conjugate_c1 x
  · rw [Fp2.mulByB_eq, mul_comm, hB]
  · exact Fp2.mul_inv h
  · rw [Fp2.pow_p]
    ext1
    · rfl
    · exact Fp2.conjugate_c1 x

/-- C17: the tests and constants. -/
theorem C17_tests (adx : Bool) (x y : Fp2 (FpV adx)) : (x.isZero = true ↔ x = 0) ∧ (x.isOne = true ↔ x = 1) ∧
    (x.equal y = true ↔ x = y) ∧ (Fp2.zero : Fp2 (FpV adx)) = 0 ∧ (Fp2.one : Fp2 (FpV adx)) = 1 ∧
    (0 : Fp2 (FpV adx)).inv = 0 :=
  ⟨Fp2.isZero_iff x, Fp2.isOne_iff x, Fp2.equal_iff x y, Fp2.zero_eq, Fp2.one_eq, by rw [Fp2.inv_eq, inv_zero]⟩

/-! ## C18 -/

/-- C18: square roots in `fp2`. -/
theorem C18_sqrt (adx : Bool) (x : Fp2 (FpV adx)) : (x.sqrt.2 = true ↔ ∃ y, y * y = x) ∧
    (x.sqrt.2 = true → x.sqrt.1 * x.sqrt.1 = x) := by
  refine ⟨(Fp2.sqrt_iff x).trans ⟨fun ⟨y, h⟩ => ⟨y, h.symm⟩, fun ⟨y, h⟩ => ⟨y, h.symm⟩⟩, Fp2.sqrt_correct x⟩

/-- C18: `isQuadraticNonResidue` (true for zero). -/
theorem C18_nonresidue (adx : Bool) (x : Fp2 (FpV adx)) :
    x.isQuadraticNonResidue = true ↔ x = 0 ∨ ¬ ∃ y, y * y = x := by
  rw [Fp2.isQNR_iff, IsSquare]
  simp only [eq_comm]

/-- Both outcomes occur: `-1 = u²` and `1 + u`. -/
example (adx : Bool) : (∃ y : Fp2 (FpV adx), y * y = -1) ∧ ¬ ∃ y : Fp2 (FpV adx), y * y = ⟨1, 1⟩ :=
  ⟨⟨⟨0, 1⟩, by ext1 <;> simp⟩, fun ⟨y, h⟩ => Fp2.xi_not_sq y (by rw [sq, h]; rfl)⟩

/-! ## C19 -/

/-- C19: the spec structures are `F_p²[v]/(v³-(1+u))` and `F_p⁶[w]/(w²-v)`, and both are fields. -/
theorem C19_structure (adx : Bool) :
    (Fp6.v : Fp6 (FpV adx)) ^ 3 = Fp6.ofFp2Hom ⟨1, 1⟩ ∧
    (∀ x : Fp6 (FpV adx), x = Fp6.ofFp2Hom x.c0 + Fp6.ofFp2Hom x.c1 * Fp6.v + Fp6.ofFp2Hom x.c2 * Fp6.v ^ 2) ∧
    IsField (Fp6 (FpV adx)) ∧
    (Fp12.w : Fp12 (FpV adx)) ^ 2 = Fp12.ofFp6Hom Fp6.v ∧
    (∀ x : Fp12 (FpV adx), x = Fp12.ofFp6Hom x.c0 + Fp12.ofFp6Hom x.c1 * Fp12.w) ∧ IsField (Fp12 (FpV adx)) :=
  ⟨Fp6.v_cube, fun x => by rw [sq]; exact Fp6.eq_sum x, Field.toIsField _, Fp12.w_sq, Fp12.eq_sum,
    Field.toIsField _⟩

/-- C19: every `fp6` operation is exact. -/
theorem C19_fp6 (adx : Bool) (x y : Fp6 (FpV adx)) (a b : Fp2 (FpV adx)) :
    x.add y = x + y ∧ x.sub y = x - y ∧ x.neg = -x ∧ x.dbl = 2 * x ∧ x.mul y = x * y ∧ x.sqr = x ^ 2 ∧
    x.mulByNonResidue = x * Fp6.v ∧ x.mulByBaseField a = x * ⟨a, 0, 0⟩ ∧ x.mulBy01 a b = x * ⟨a, b, 0⟩ ∧
    x.mulBy01Assign a b = x * ⟨a, b, 0⟩ ∧ x.mulBy1 a = x * ⟨0, a, 0⟩ ∧ x.inv = x⁻¹ ∧ (x ≠ 0 → x.mul x.inv = 1) :=
  ⟨Fp6.add_eq x y, Fp6.sub_eq x y, Fp6.neg_eq x, by rw [Fp6.dbl_eq, two_mul], Fp6.mul_eq x y,
    by rw [Fp6.sqr_eq, sq], by rw [Fp6.mulByNonResidue_eq, mul_comm], Fp6.mulByBaseField_eq x a,
    Fp6.mulBy01_eq x a b, Fp6.mulBy01Assign_eq x a b, Fp6.mulBy1_eq x a, Fp6.inv_eq x,
    fun h => Fp6.mul_inv h⟩

/-- C19: every `fp12` operation is exact; `conjugate` is `x ↦ x^(p⁶)`. -/
theorem C19_fp12 (adx : Bool) (x y : Fp12 (FpV adx)) (a b c : Fp2 (FpV adx)) :
    x.add y = x + y ∧ x.sub y = x - y ∧ x.neg = -x ∧ x.dbl = 2 * x ∧ x.mul y = x * y ∧ x.sqr = x ^ 2 ∧
    x.conjugate = ⟨x.c0, -x.c1⟩ ∧ x.conjugate = x ^ p ^ 6 ∧ x.mulBy014 a b c = x * ⟨⟨a, b, 0⟩, ⟨0, c, 0⟩⟩ ∧
    x.inv = x⁻¹ ∧ (x ≠ 0 → x.mul x.inv = 1) := by
  have hc : x.conjugate = ⟨x.c0, -x.c1⟩ := by
    ext1
    · rfl
    · exact Fp12.conjugate_c1 x
  refine ⟨Fp12.add_eq x y, Fp12.sub_eq x y, Fp12.neg_eq x, by rw [Fp12.dbl_eq, two_mul], Fp12.mul_eq x y,
    by rw [Fp12.sqr_eq, sq], hc, ?_, Fp12.mulBy014_eq x a b c, Fp12.inv_eq x,
    fun h => Fp12.mul_inv h⟩
  have h6 := Fp12.frobeniusMapAssign_eq x 6 (by norm_num)
  have h0 : ∀ y : Fp6 (FpV adx), y ^ p ^ 6 = y := fun y => by
    rw [← Fp6.frobeniusMapAssign_eq]; simp [Fp6.frobeniusMapAssign, Fp2.frobeniusMap]
  rw [hc, Fp12.pow_p_pow, h0, h0, C6]
  have : (Fp6.ofFp2 (-1) : Fp6 (FpV adx)) = -1 := map_neg Fp6.ofFp2Hom 1
  rw [this, mul_neg_one]

/-- C19: the tests and constants. -/
theorem C19_tests (adx : Bool) :
    (∀ x : Fp6 (FpV adx), (x.isZero = true ↔ x = 0) ∧ (x.isOne = true ↔ x = 1)) ∧
    (∀ x y : Fp6 (FpV adx), x.equal y = true ↔ x = y) ∧
    (∀ x : Fp12 (FpV adx), (x.isZero = true ↔ x = 0) ∧ (x.isOne = true ↔ x = 1)) ∧
    (∀ x y : Fp12 (FpV adx), x.equal y = true ↔ x = y) ∧
    (Fp6.one : Fp6 (FpV adx)) = 1 ∧ (Fp12.one : Fp12 (FpV adx)) = 1 :=
  ⟨fun x => ⟨Fp6.isZero_iff x, Fp6.isOne_iff x⟩, Fp6.equal_iff, fun x => ⟨Fp12.isZero_iff x, Fp12.isOne_iff x⟩,
    Fp12.equal_iff, Fp6.one_eq, Fp12.one_eq⟩

/-! ## C20 -/

/-- C20: the in-place maps are Frobenius powers for every power of `fp6` and for the powers `fp12` supports. -/
theorem C20_assign (adx : Bool) (k : ℕ) : (∀ x : Fp6 (FpV adx), x.frobeniusMapAssign k = x ^ p ^ k) ∧
    (k < 12 → ∀ x : Fp12 (FpV adx), x.frobeniusMapAssign k = some (x ^ p ^ k)) :=
  ⟨fun x => Fp6.frobeniusMapAssign_eq x k, fun h x => Fp12.frobeniusMapAssign_eq x k h⟩

/-- C20, what holds of the copying maps: they are Frobenius powers when `k mod 6 ≠ 3`. Missing for the full
statement: `k ≡ 3 (mod 6)`, where it is false (`C20_fp6_false`, `C20_fp12_false`). -/
theorem C20_partial (adx : Bool) (k : ℕ) (h3 : k % 6 ≠ 3) : (∀ x : Fp6 (FpV adx), x.frobeniusMap k = x ^ p ^ k) ∧
    (k < 12 → ∀ x : Fp12 (FpV adx), x.frobeniusMap k = some (x ^ p ^ k)) :=
  ⟨fun x => Fp6.frobeniusMap_eq x k h3, fun h x => Fp12.frobeniusMap_eq x k h h3⟩

example : (1 : ℕ) < 12 ∧ 1 % 6 ≠ 3 ∧ (2 : ℕ) < 12 ∧ 2 % 6 ≠ 3 := by decide

/-- C20 is false of `fp6::frobeniusMap(3)`: the image of `1` is `0`. -/
theorem C20_fp6_false (adx : Bool) : ¬ ∀ x : Fp6 (FpV adx), x.frobeniusMap 3 = x ^ p ^ 3 := by
  intro h
  have h1 := h 1
  rw [one_pow] at h1
  have h2 := congrArg (fun t : Fp6 (FpV adx) => t.c0.c0) h1
  simp only [Fp6.frobeniusMap] at h2
  have h3 : (Ops.neg ((1 : Fp6 (FpV adx)).c1.c1)) = (1 : Fp6 (FpV adx)).c0.c0 := h2
  rw [LawfulOps.neg_eq, Fp6.one_c1, Fp6.one_c0, Fp2.zero_c1, neg_zero, Fp2.one_c0] at h3
  exact zero_ne_one h3

/-- C20 is false of `fp12::frobeniusMap(3)`. -/
theorem C20_fp12_false (adx : Bool) : ¬ ∀ x : Fp12 (FpV adx), x.frobeniusMap 3 = some (x ^ p ^ 3) := by
  intro h
  have h1 := h 1
  rw [one_pow, Fp12.frobeniusMap, if_neg (by norm_num), if_neg (by norm_num), getElem_12 3 (by norm_num)] at h1
  have h2 := congrArg (fun t : Fp12 (FpV adx) => t.c0.c0.c0) (Option.some.inj h1)
  have h3 : (Ops.neg ((1 : Fp6 (FpV adx)).c1.c1)) = (1 : Fp6 (FpV adx)).c0.c0 := h2
  rw [LawfulOps.neg_eq, Fp6.one_c1, Fp6.one_c0, Fp2.zero_c1, neg_zero, Fp2.one_c0] at h3
  exact zero_ne_one h3

/-- C20, the missing case: `fp6::frobeniusMap(k)` with `k ≡ 3 (mod 6)` is right exactly for the elements
`(-c + a u) + (c + c u) v + d v²` with `a`, `c`, `d` in the base field. -/
theorem C20_fp6_exact (adx : Bool) (k : ℕ) (h3 : k % 6 = 3) (x : Fp6 (FpV adx)) :
    x.frobeniusMap k = x ^ p ^ k ↔ x.c0.c0 = -x.c1.c1 ∧ x.c1.c0 = x.c1.c1 ∧ x.c2.c1 = 0 :=
  Fp6.frobeniusMap_iff x k h3

/-- The same for `fp12::frobeniusMap`: both halves must be of that form. -/
theorem C20_fp12_exact (adx : Bool) (k : ℕ) (h : k < 12) (h3 : k % 6 = 3) (x : Fp12 (FpV adx)) :
    x.frobeniusMap k = some (x ^ p ^ k) ↔
      (x.c0.c0.c0 = -x.c0.c1.c1 ∧ x.c0.c1.c0 = x.c0.c1.c1 ∧ x.c0.c2.c1 = 0) ∧
      (x.c1.c0.c0 = -x.c1.c1.c1 ∧ x.c1.c1.c0 = x.c1.c1.c1 ∧ x.c1.c2.c1 = 0) :=
  Fp12.frobeniusMap_iff x k h h3

/-- The powers concerned, and an element of each kind. -/
example (adx : Bool) : (3 % 6 = 3 ∧ 9 % 6 = 3 ∧ 9 < 12) ∧
    (⟨⟨-1, 5⟩, ⟨1, 1⟩, ⟨7, 0⟩⟩ : Fp6 (FpV adx)).frobeniusMap 3 = ⟨⟨-1, 5⟩, ⟨1, 1⟩, ⟨7, 0⟩⟩ ^ p ^ 3 ∧
    (1 : Fp6 (FpV adx)).frobeniusMap 3 ≠ 1 ^ p ^ 3 := by
  refine ⟨by decide, (C20_fp6_exact adx 3 rfl _).2 ⟨rfl, rfl, rfl⟩, fun h => ?_⟩
  have h1 := ((C20_fp6_exact adx 3 rfl _).1 h).1
  rw [Fp6.one_c0, Fp6.one_c1, Fp2.one_c0, Fp2.zero_c1, neg_zero] at h1
  exact one_ne_zero h1

/-- C20 for `fp2`, where the copying and the in-place map are the same function. -/
theorem C20_fp2 (adx : Bool) (k : ℕ) (x : Fp2 (FpV adx)) : x.frobeniusMap k = x ^ p ^ k :=
  Fp2.frobeniusMap_eq x k

/-- C20: from power 12 on, the `fp12` maps read past the end of the coefficient table. -/
theorem C20_out_of_range (adx : Bool) (k : ℕ) (h : 12 ≤ k) (x : Fp12 (FpV adx)) :
    x.frobeniusMap k = none ∧ x.frobeniusMapAssign k = none :=
  ⟨Fp12.frobeniusMap_none x k h, Fp12.frobeniusMapAssign_none x k h⟩

example : (12 : ℕ) ≤ 13 := by norm_num

/-! ## C21 -/

/-- C21: on the cyclotomic subgroup the fast squaring is squaring and the fast exponentiation is exponentiation,
for exponent arrays of every length. -/
theorem C21_cyclotomic (adx : Bool) (x : Fp12 (FpV adx)) (h : x ^ (p ^ 4 - p ^ 2 + 1) = 1) (s : List UInt64) :
    x.cyclotomicSquare = x ^ 2 ∧ x.cyclotomicExp s = Ops.exp x s ∧ x.cyclotomicExp s = x ^ wordsVal s := by
  have h0 : x ≠ 0 := by
    rintro rfl
    rw [zero_pow (Nat.succ_ne_zero _)] at h
    exact zero_ne_one h
  have hc := (Fp12.cyc_iff h0).2 h
  exact ⟨by rw [Fp12.cyclotomicSquare_eq hc, sq], by rw [Fp12.cyclotomicExp_eq hc, Ops.exp_eq],
    Fp12.cyclotomicExp_eq hc s⟩

/-- Members: `y^((p⁶-1)(p²+1))` for every nonzero `y`. -/
example (adx : Bool) (y : Fp12 (FpV adx)) (hy : y ≠ 0) :
    (y ^ ((p ^ 6 - 1) * (p ^ 2 + 1))) ^ (p ^ 4 - p ^ 2 + 1) = 1 := by
  have h12 : y ^ p ^ 12 = y := by
    have h := Fp12.pow_p_pow y 12
    have h0 : ∀ y : Fp6 (FpV adx), y ^ p ^ 12 = y := fun y => by
      rw [← Fp6.frobeniusMapAssign_eq]; simp [Fp6.frobeniusMapAssign, Fp2.frobeniusMap]
    have hC : C 12 = C 0 := rfl
    rw [h0, h0, hC, C_zero] at h
    rw [h]
    have : (Fp6.ofFp2 1 : Fp6 (FpV adx)) = 1 := rfl
    rw [this, mul_one]
  have e : (p ^ 6 - 1) * (p ^ 2 + 1) * (p ^ 4 - p ^ 2 + 1) + 1 = p ^ 12 := by decide +kernel
  rw [← pow_mul]
  apply mul_right_cancel₀ hy
  rw [← pow_succ, e, h12, one_mul]

end Bls.Props
