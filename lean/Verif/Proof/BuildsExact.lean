import Verif.Proof.Builds
import Verif.Proof.CarryFp
import Verif.Proof.Kaliski

/-!
# When the operations of the two builds agree
-/

set_option exponentiation.threshold 1000

namespace Bls.Portable
open Bls.Kaliski Bls.Fp Scalar

attribute [local irreducible] p

theorem ladd_same {x y : Fp} (h : ∀ k, ¬ CarryLost x.val y.val k) : ladd x y = X86.ladd x y := by
  apply Fp.val_inj
  obtain ⟨-, h1, h2, h3⟩ := addLoop_le 6 (limbs x) (limbs y) 0 (by simp [limbs]) (by simp [limbs]) (by simp)
  have e : (addLoop 6 (limbs x) (limbs y) 0).1 = limbs (addChain x y) := rfl
  rw [e, wordsVal_limbs, wordsVal_limbs, wordsVal_limbs] at h3
  simp only [UInt64.toNat_zero, add_zero, lostIn_zero] at h3
  have h4 := h3.2 h
  rw [X86.ladd_val, ← h4]
  have := Fp.val_lt (addChain x y)
  change (addChain x y).val = _
  omega

theorem lsub_same {x y : Fp} (h : ∀ k, ¬ BorrowLost x.val y.val k) : lsubtract x y = X86.lsub x y := by
  apply Fp.val_inj
  obtain ⟨h1, h2, h3, h4⟩ := subLoop_ge 6 (limbs x) (limbs y) 0 (by simp [limbs]) (by simp [limbs]) (by simp)
  have e : (subLoop (limbs x) (limbs y) 0).1 = limbs (subChain x y).1 := rfl
  rw [e, wordsVal_limbs, wordsVal_limbs, wordsVal_limbs] at h3
  simp only [UInt64.toNat_zero, add_zero, lostOut_zero] at h3
  have h5 := h3.2 h
  rw [X86.lsub_val]
  have := Fp.val_lt (subChain x y).1
  have := Fp.val_lt x
  have := Fp.val_lt y
  change (subChain x y).1.val = _
  generalize (subLoop (limbs x) (limbs y) 0).2.toNat = c at *
  have hc : c = 0 ∨ c = 1 := by omega
  rcases hc with rfl | rfl <;> omega

theorem addV {x y : Fp} (hx : x.val < p) (hy : y.val < p) : (X86.add x y).val = (x.val + y.val) % p := by
  rw [X86.add_val, X86.csub]
  unfold p at *
  split <;> omega

theorem add_same_iff {x y : Fp} (hx : x.val < p) (hy : y.val < p) :
    add x y = X86.add x y ↔ ∀ k, ¬ CarryLost x.val y.val k := by
  rw [← add_exact x y hx hy, ← addV hx hy]
  exact ⟨congrArg Fp.val, fun h => Fp.val_inj h⟩

theorem dbl_same_iff {x : Fp} (hx : x.val < p) : double x = X86.dbl x ↔ ∀ k, ¬ CarryLost x.val x.val k := by
  have h : (X86.dbl x).val = (x.val + x.val) % p := by
    rw [X86.dbl_val, X86.csub]
    unfold p at *
    rw [Nat.mod_eq_of_lt (b := 2 ^ 384) (by omega)]
    split <;> omega
  rw [← add_exact x x hx hx, ← h]
  exact ⟨congrArg Fp.val, fun h => Fp.val_inj h⟩

theorem sub_same_iff {x y : Fp} (hx : x.val < p) (hy : y.val < p) :
    subtract x y = X86.sub x y ↔ ∀ k, ¬ BorrowLost x.val y.val k := by
  have h : (X86.sub x y).val = (x.val + p - y.val) % p := by
    rw [X86.sub_val]
    unfold p at *
    split <;> omega
  rw [← subtract_exact x y hx hy, ← h]
  exact ⟨congrArg Fp.val, fun h => Fp.val_inj h⟩

theorem neg_same_iff {x : Fp} (hx : x.val < p) : negate x = X86.neg x ↔ ∀ k, ¬ BorrowLost p x.val k := by
  have h : (X86.neg x).val = (p - x.val) % p := by
    rw [X86.neg_val]
    unfold p at *
    split <;> omega
  rw [← negate_exact x hx, ← h]
  exact ⟨congrArg Fp.val, fun h => Fp.val_inj h⟩

/-! ## Multiplication of sums -/

theorem mulLadd_same_iff (adx : Bool) {x y z : Fp} (hx : x.val < p) (hy : y.val < p) (hz : z.val < p) :
    multiply (ladd x y) z = X86.mul adx (X86.ladd x y) z ↔ z.val = 0 ∨ ∀ k, ¬ CarryLost x.val y.val k := by
  obtain ⟨c, d, h1, h2, h3⟩ := addChain_loss x y hy
  have h4 := Fp.val_lt (addChain x y)
  have hp : 2 * p < 2 ^ 384 := by decide +kernel
  have hd : 2 ^ 322 < p := by decide +kernel
  have hc : c = 0 := by omega
  subst hc
  rw [multiply_same_const adx _ _ hz, ← h3]
  have e : (X86.ladd x y).val = (ladd x y).val + d := by
    rw [X86.ladd_val, Nat.mod_eq_of_lt (by omega)]
    change _ = (addChain x y).val + d
    omega
  obtain ⟨l1, e1⟩ := X86.redc_spec (Fp.mul_bound (ladd x y) hz)
  obtain ⟨l2, e2⟩ := X86.redc_spec (Fp.mul_bound (X86.ladd x y) hz)
  rw [← X86.mul_val adx] at l1 e1 l2 e2
  constructor
  · intro h
    rw [← h, e1, e, add_mul] at e2
    have h5 : p ∣ d * z.val := by
      have : (ladd x y).val * z.val + 0 ≡ (ladd x y).val * z.val + d * z.val [MOD p] := by rw [add_zero]; exact e2
      exact (Nat.modEq_zero_iff_dvd).1 (Nat.ModEq.add_left_cancel' _ this).symm
    rcases (Nat.Prime.dvd_mul p_prime).1 h5 with h6 | h6
    · exact .inr (Nat.eq_zero_of_dvd_of_lt h6 (by omega))
    · exact .inl (Nat.eq_zero_of_dvd_of_lt h6 hz)
  · intro h
    have h5 : (X86.ladd x y).val * z.val = (ladd x y).val * z.val := by
      rcases h with h | h
      · rw [h, mul_zero, mul_zero]
      · rw [e, h, add_zero]
    rw [h5] at e2
    apply Fp.val_inj
    exact Nat.ModEq.eq_of_lt_of_lt (Nat.ModEq.cancel_left_of_coprime coprime_R (e1.trans e2.symm)) l1 l2

/-! ## Inversion -/

/-- A round on the integers `t` in which no carry and no borrow is lost. -/
def CleanRound (t : State) : Prop := t.u % 2 ≠ 0 → t.v % 2 ≠ 0 →
  (t.v < t.u → (∀ k, ¬ BorrowLost t.u t.v k) ∧ ∀ k, ¬ CarryLost t.r t.s k) ∧
  (¬ t.v < t.u → (∀ k, ¬ BorrowLost t.v t.u k) ∧ ∀ k, ¬ CarryLost t.s t.r k)

theorem invLoop_clean (n k : ℕ) (t : InvVars) (hc : CleanRound t.val) : invLoop (n + 1) t.u t.v t.s t.r k =
    if t.v.isZero then some (t.r, k) else invLoop n (invStep t).u (invStep t).v (invStep t).s (invStep t).r (k + 1) := by
  rw [invLoop, invStep]
  by_cases h0 : t.v.isZero = true
  · rw [if_pos h0, if_pos h0]
  rw [if_neg h0, if_neg h0]
  by_cases h1 : t.u.isEven = true
  · rw [if_pos h1, if_pos h1]
  rw [if_neg h1, if_neg h1]
  by_cases h2 : t.v.isEven = true
  · rw [if_pos h2, if_pos h2]
  rw [if_neg h2, if_neg h2]
  have hc' := hc (fun h => h1 ((Fp.isEven_iff _).2 h)) (fun h => h2 ((Fp.isEven_iff _).2 h))
  by_cases h3 : t.v.lt t.u = true
  · obtain ⟨c1, c2⟩ := hc'.1 ((Fp.lt_iff _ _).1 h3)
    rw [if_pos h3, if_pos h3, lsub_same c1, ladd_same c2]
  · obtain ⟨c1, c2⟩ := hc'.2 fun h => h3 ((Fp.lt_iff _ _).2 h)
    rw [if_neg h3, if_neg h3, lsub_same c1, ladd_same c2]

theorem loop_same {x : Fp} (hx : x.val ≠ 0) (hp : x.val < p) {k : ℕ} (hk : StopsAt x.val k)
    (hc : ∀ i < k, CleanRound (state x.val i)) : ∀ n i, i + n = k → ∀ m, n < m →
    invLoop m (invStep^[i] (invStart x)).u (invStep^[i] (invStart x)).v (invStep^[i] (invStart x)).s (invStep^[i] (invStart x)).r i
      = some ((invStep^[k] (invStart x)).r, k)
  | 0, i, e, m, hm => by
    obtain ⟨m, rfl⟩ : ∃ j, m = j + 1 := ⟨m - 1, by omega⟩
    obtain rfl : i = k := by omega
    have h0 : (invStep^[i] (invStart x)).v.isZero = true := by
      rw [Fp.isZero_iff]
      have := vars_val hx hp i hk.2
      exact (congrArg State.v this).trans hk.1
    rw [invLoop, if_pos h0]
  | n + 1, i, e, m, hm => by
    obtain ⟨m, rfl⟩ : ∃ j, m = j + 1 := ⟨m - 1, by omega⟩
    have hv := vars_val hx hp i fun j hj => hk.2 j (by omega)
    have h0 : ¬ (invStep^[i] (invStart x)).v.isZero = true := by
      rw [Fp.isZero_iff]
      intro h
      exact hk.2 i (by omega) ((congrArg State.v hv).symm.trans h)
    have := loop_same hx hp hk hc n (i + 1) (by omega) m (by omega)
    rw [Function.iterate_succ_apply'] at this
    rw [invLoop_clean _ _ _ (by rw [hv]; exact hc i (by omega)), if_neg h0]
    exact this

theorem no_borrow_p (a k : ℕ) : ¬ BorrowLost a p k := by
  rintro ⟨h, -⟩
  by_cases hk : k < 6
  · have : ∀ k < 6, p / 2 ^ (64 * k) % 2 ^ 64 ≠ 2 ^ 64 - 1 := by unfold p; decide +kernel
    exact this k hk h
  · rw [Nat.div_eq_of_lt (lt_of_lt_of_le (b := 2 ^ 384) (by decide +kernel) (Nat.pow_le_pow_right (by norm_num) (by omega)))] at h
    revert h
    decide

theorem inverse_same (adx : Bool) {x : Fp} (hx : x.val ≠ 0) (hp : x.val < p) {k : ℕ} (hk : StopsAt x.val k)
    (hc : ∀ i < k, CleanRound (state x.val i))
    (hl : ∀ j, ¬ BorrowLost p (if (state x.val k).r < p then (state x.val k).r else (state x.val k).r - p) j) :
    inverse x = x.inverse adx := by
  have hb := hk.bounds hx hp
  have e1 : invLoop 768 MODULUS x ⟨1, 0, 0, 0, 0, 0⟩ ⟨0, 0, 0, 0, 0, 0⟩ 0 = some ((invStep^[k] (invStart x)).r, k) :=
    loop_same hx hp hk hc k 0 (by omega) 768 (by omega)
  have e2 : Fp.invLoop 768 MODULUS x ⟨1, 0, 0, 0, 0, 0⟩ ⟨0, 0, 0, 0, 0, 0⟩ 0 = some ((invStep^[k] (invStart x)).r, k) :=
    loop_from hx hp hk k 0 (by omega) 768 (by omega)
  have hz : ¬ x.isZero = true := by rw [Fp.isZero_iff]; exact hx
  have hr : (invStep^[k] (invStart x)).r.val = (state x.val k).r := congrArg State.r (vars_val hx hp k hk.2)
  rw [inverse, Fp.inverse, if_neg hz, if_neg hz, e1, e2]
  generalize (invStep^[k] (invStart x)).r = r at hr
  have m1 : lsubtract r MODULUS = X86.lsub r MODULUS := lsub_same (by rw [ MODULUS_val]; exact no_borrow_p _)
  have hlt : r.lt MODULUS = true ↔ (state x.val k).r < p := by rw [Fp.lt_iff, hr, MODULUS_val]
  have m2 : lsubtract MODULUS (if r.lt MODULUS then r else X86.lsub r MODULUS) =
      X86.lsub MODULUS (if r.lt MODULUS then r else X86.lsub r MODULUS) := by
    apply lsub_same
    rw [ MODULUS_val]
    by_cases h : (state x.val k).r < p
    · rw [if_pos (hlt.2 h), hr]
      rwa [if_pos h] at hl
    · rw [if_neg (fun h' => h (hlt.1 h')), X86.lsub_val, hr, MODULUS_val]
      rw [if_neg h] at hl
      have h1 := Fp.val_lt r
      have : ((state x.val k).r + 2 ^ 384 - p) % 2 ^ 384 = (state x.val k).r - p := by
        have hp' : p < 2 ^ 384 := by decide +kernel
        omega
      rw [this]
      exact hl
  dsimp only
  rw [m1, m2]
  simp only [multiply_same_const adx _ Fp.R2 (by decide +kernel)]
  have hR : (R2 : Fp).val < p := by decide +kernel
  generalize hu : (if k ≤ 384 then X86.mul adx _ R2 else _) = u
  have hw : (X86.mul adx u R2).val < p := FpV.mul_valid u hR
  revert hw
  generalize X86.mul adx u R2 = w
  intro hw
  generalize hk' : (if k ≤ 384 then k + 384 else k) = k'
  have hk2 : 385 ≤ k' := by
    rw [← hk']
    split <;> omega
  by_cases h : k' > 2 * 384
  · rw [if_pos h, if_pos h]
  · rw [if_neg h, if_neg h]
    have hpw := powerOfTwo_val (e := 2 * 384 - k') (by omega)
    have hle : (powerOfTwo (2 * 384 - k')).val ≤ 2 ^ 383 := by
      rw [hpw]
      exact Nat.pow_le_pow_right (by norm_num) (by omega)
    have hp' : p < 2 ^ 383 := by decide +kernel
    refine multiply_same adx w _ (by omega) ?_
    rw [mul_comm (2 ^ 384)]
    exact Nat.mul_lt_mul'' hw (by omega)

end Bls.Portable
