import Verif.Proof.BuildsExact
import Verif.Props.Builds
import Verif.Props.Portable

/-!
# C64: on which operands the operations of the two builds agree
-/

namespace Bls.Props
open Bls Bls.Kaliski Bls.Portable

set_option exponentiation.threshold 1000
set_option maxRecDepth 100000

attribute [local irreducible] p

variable {adx : Bool}

/-- C64: on canonical operands the operations of `class fp` give the same words in both builds exactly if no carry or borrow
meets a word `2^64-1`; multiplication always does. -/
theorem C64_ops_exact (x y z : FpV adx) :
    (Ops.add (F := FpP) x.1 y.1 = (Ops.add x y).1 ↔ ∀ k, ¬ CarryLost x.1.val y.1.val k) ∧
    (Ops.dbl (F := FpP) x.1 = (Ops.dbl x).1 ↔ ∀ k, ¬ CarryLost x.1.val x.1.val k) ∧
    (Ops.sub (F := FpP) x.1 y.1 = (Ops.sub x y).1 ↔ ∀ k, ¬ BorrowLost x.1.val y.1.val k) ∧
    (Ops.neg (F := FpP) x.1 = (Ops.neg x).1 ↔ ∀ k, ¬ BorrowLost p x.1.val k) ∧
    Ops.mul (F := FpP) x.1 y.1 = (Ops.mul x y).1 ∧
    (FpOps.mulLadd (K := FpP) x.1 y.1 z.1 = (FpOps.mulLadd x y z).1 ↔
      z.1.val = 0 ∨ ∀ k, ¬ CarryLost x.1.val y.1.val k) ∧
    (FpOps.mulLdbl (K := FpP) x.1 z.1 = (FpOps.mulLdbl x z).1 ↔ z.1.val = 0 ∨ ∀ k, ¬ CarryLost x.1.val x.1.val k) := by
  have hl : X86.ldbl x.1 = X86.ladd x.1 x.1 := Fp.val_inj (by rw [X86.ldbl_val, X86.ladd_val])
  refine ⟨add_same_iff x.2 y.2, dbl_same_iff x.2, sub_same_iff x.2 y.2, neg_same_iff x.2,
    multiply_same_const adx _ _ y.2, mulLadd_same_iff adx x.2 y.2 z.2, ?_⟩
  have := mulLadd_same_iff adx x.2 x.2 z.2
  rw [← hl] at this
  exact this

/-- C64 for squares: the same words if the doubled products of the lower words leave room for carries. Missing: the other
operands, on some of which the portable square is wrong (`C03_square_false`); `C64_square_exact` says on which. -/
theorem C64_square_partial (x : FpV adx) (h : ∀ i j, i < j → j < 5 → ¬ NoRoom x.1.val i j) :
    Ops.sqr (F := FpP) x.1 = (Ops.sqr x).1 := by
  obtain ⟨l1, e1⟩ := C03_square_partial x.1 x.2 h
  have hr := X86.rep_sqr x.rep
  have hm := X86.rep_mul (adx := adx) x.rep x.rep
  have e : X86.sqr x.1 = X86.mul adx x.1 x.1 := Fp.Rep.inj hr hm
  change Portable.square x.1 = X86.sqr x.1
  rw [e]
  obtain ⟨l2, e2⟩ := X86.redc_spec (Fp.mul_bound x.1 x.2)
  rw [← X86.mul_val adx] at l2 e2
  exact Fp.val_inj (Nat.ModEq.eq_of_lt_of_lt (Nat.ModEq.cancel_left_of_coprime coprime_R (e1.trans e2.symm)) l1 l2)

/-- C64 for inversion: the same words if in no round of the algorithm on integers, and not in the last subtraction, a carry or
borrow meets a word `2^64-1`. Missing: the other elements, for some of which the portable inverse is wrong
(`C64_inverse_false`, `C64_inverse_last_false`). -/
theorem C64_inverse_partial (x : FpV adx) (k : ℕ) (hk : StopsAt x.1.val k) (h0 : x.1.val ≠ 0)
    (hc : ∀ i < k, CleanRound (state x.1.val i))
    (hl : ∀ j, ¬ BorrowLost p (if (state x.1.val k).r < p then (state x.1.val k).r else (state x.1.val k).r - p) j) :
    Ops.inv (F := FpP) x.1 = (Ops.inv x).1 := inverse_same adx h0 x.2 hk hc hl

/-- C64: the inverse of zero is zero in both builds. -/
theorem C64_inverse_zero (x : FpV adx) (h : x.1 = Fp.zero) :
    Ops.inv (F := FpP) x.1 = Fp.zero ∧ (Ops.inv x).1 = Fp.zero :=
  ⟨by
    rw [h]
    exact (by decide +kernel : Portable.inverse Fp.zero = Fp.zero), (C08_inverse adx x.1 x.2).2.2 h⟩

/-- An element for which the rounds are right and only the last subtraction of the portable inverse loses a borrow. -/
def lastLost : Fp := ⟨0xc9663fe1e2613dc3, 0x7b46cd947e01ddbc, 0xf9f9b3ccc9e0d105, 0x99f82cae2559a454, 0xfdb4767a124274aa,
  0x036c460dd36e450a⟩

/-- The negation of C64 for inversion, at the last subtraction: the loop ends with the right numbers, the inverse is wrong. -/
theorem C64_inverse_last_false : ∃ (x r : Fp) (k : ℕ), x.Valid ∧ x.isZero = false ∧ StopsAt x.val k ∧
    Portable.invLoop 768 MODULUS x ⟨1, 0, 0, 0, 0, 0⟩ ⟨0, 0, 0, 0, 0, 0⟩ 0 = some (r, k) ∧ r.val = (state x.val k).r ∧
    Portable.multiply x (Portable.inverse x) ≠ Fp.R1 ∧ X86.mul adx x (x.inverse adx) = Fp.R1 := by
  have hs : StopsAt lastLost.val 520 := stops_of_count (by decide +kernel)
  obtain ⟨r, hr, e⟩ : ∃ r, Portable.invLoop 768 MODULUS lastLost ⟨1, 0, 0, 0, 0, 0⟩ ⟨0, 0, 0, 0, 0, 0⟩ 0 = some (r, 520) ∧
      r.val = (state lastLost.val 520).r := by
    have : (Portable.invLoop 768 MODULUS lastLost ⟨1, 0, 0, 0, 0, 0⟩ ⟨0, 0, 0, 0, 0, 0⟩ 0).map (fun o => (o.1.val, o.2)) =
      some ((state lastLost.val 520).r, 520) := by decide +kernel
    obtain ⟨⟨r, k⟩, h1, h2⟩ := Option.map_eq_some_iff.1 this
    obtain ⟨h3, h4⟩ := Prod.mk.inj h2
    exact ⟨r, h1.trans (by rw [← h4]), h3⟩
  exact ⟨lastLost, r, 520, by decide +kernel, by decide +kernel, hs, hr, e, by decide +kernel,
    (C08_inverse adx _ (by decide +kernel)).2.1 (by decide +kernel)⟩

/-! ## The hypotheses are met -/

/-- No word of the six is `2^64-1`. -/
def clean (y : ℕ) : Bool := decide (y < 2 ^ 384) && (List.range 6).all fun k => y / 2 ^ (64 * k) % 2 ^ 64 != 2 ^ 64 - 1

theorem clean_spec {y : ℕ} (h : clean y = true) (k : ℕ) : y / 2 ^ (64 * k) % 2 ^ 64 ≠ 2 ^ 64 - 1 := by
  rw [clean, Bool.and_eq_true, decide_eq_true_eq] at h
  by_cases hk : k < 6
  · simpa using List.all_eq_true.1 h.2 k (List.mem_range.2 hk)
  · rw [Nat.div_eq_of_lt (lt_of_lt_of_le h.1 (Nat.pow_le_pow_right (by norm_num) (by omega)))]
    decide

/-- The conditions of `C64_inverse_partial` hold for the element with the words of 5. -/
theorem inverse_case : (⟨5, 0, 0, 0, 0, 0⟩ : Fp).Valid ∧ StopsAt 5 381 ∧ (∀ i < 381, CleanRound (state 5 i)) ∧
    ∀ j, ¬ BorrowLost p (if (state 5 381).r < p then (state 5 381).r else (state 5 381).r - p) j := by
  have h : ∀ i < 381, (clean (state 5 i).u && clean (state 5 i).v && clean (state 5 i).s && clean (state 5 i).r) = true := by
    decide +kernel
  refine ⟨by decide +kernel, stops_of_count (by decide +kernel), fun i hi _ _ => ?_, fun j hj => ?_⟩
  · have := h i hi
    simp only [Bool.and_eq_true] at this
    obtain ⟨⟨⟨h1, h2⟩, h3⟩, h4⟩ := this
    exact ⟨fun _ => ⟨fun k hk => clean_spec h2 k hk.1, fun k hk => clean_spec h3 k hk.1⟩,
      fun _ => ⟨fun k hk => clean_spec h1 k hk.1, fun k hk => clean_spec h4 k hk.1⟩⟩
  · exact clean_spec (y := if (state 5 381).r < p then (state 5 381).r else (state 5 381).r - p) (by decide +kernel) j hj.1

/-- So both builds give the same inverse of it, and of zero. -/
example : ∃ x : FpV adx, x.1 = ⟨5, 0, 0, 0, 0, 0⟩ ∧ Ops.inv (F := FpP) x.1 = (Ops.inv x).1 := by
  obtain ⟨hv, h1, h2, h3⟩ := inverse_case
  have e : (⟨5, 0, 0, 0, 0, 0⟩ : Fp).val = 5 := by decide +kernel
  exact ⟨⟨⟨5, 0, 0, 0, 0, 0⟩, hv⟩, rfl, C64_inverse_partial (⟨⟨5, 0, 0, 0, 0, 0⟩, hv⟩ : FpV adx) 381 (e ▸ h1)
    (by rw [e]; decide) (e ▸ h2) (e ▸ h3)⟩

example : ∃ x : FpV adx, x.1 = Fp.zero ∧ Ops.inv (F := FpP) x.1 = Fp.zero ∧ (Ops.inv x).1 = Fp.zero :=
  ⟨⟨Fp.zero, by decide +kernel⟩, rfl, C64_inverse_zero _ rfl⟩

/-- Those of `C64_square_partial` hold for `fp::one()`. -/
theorem square_case : ∀ i j, i < j → j < 5 → ¬ NoRoom Fp.R1.val i j := by
  have h : ∀ j < 5, ∀ i < j, ¬ NoRoom Fp.R1.val i j := by unfold NoRoom; decide +kernel
  exact fun i j hi hj => h j hj i hi

example : ∃ x : FpV adx, x.1 = Fp.R1 ∧ Ops.sqr (F := FpP) x.1 = (Ops.sqr x).1 :=
  ⟨⟨Fp.R1, by decide +kernel⟩, rfl, C64_square_partial _ square_case⟩

end Bls.Props
