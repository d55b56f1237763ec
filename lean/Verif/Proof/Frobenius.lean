import Verif.Proof.Eval
import Mathlib.Algebra.CharP.Algebra
import Mathlib.Algebra.CharP.Lemmas

/-! Frobenius maps of the tower. -/

set_option linter.unusedSectionVars false

namespace Bls

section

variable {K : Type} [CommRing K]

/-- `F_p → F_p²` as a ring homomorphism. -/
def Fp2.ofBaseHom : K →+* Fp2 K where
  toFun := Fp2.ofBase
  map_one' := rfl
  map_zero' := rfl
  map_add' a b := by ext <;> simp [Fp2.ofBase]
  map_mul' a b := by ext <;> simp [Fp2.ofBase]

/-- `F_p² → F_p⁶` as a ring homomorphism. -/
def Fp6.ofFp2Hom : Fp2 K →+* Fp6 K where
  toFun := Fp6.ofFp2
  map_one' := rfl
  map_zero' := rfl
  map_add' a b := by ext1 <;> simp [Fp6.ofFp2]
  map_mul' a b := by ext1 <;> simp [Fp6.ofFp2]

/-- `F_p⁶ → F_p¹²` as a ring homomorphism. -/
def Fp12.ofFp6Hom : Fp6 K →+* Fp12 K where
  toFun := Fp12.ofFp6
  map_one' := rfl
  map_zero' := rfl
  map_add' a b := by ext1 <;> simp [Fp12.ofFp6]
  map_mul' a b := by ext1 <;> simp [Fp12.ofFp6]

@[simp] theorem Fp2.ofBaseHom_c0 (a : K) : (Fp2.ofBaseHom a).c0 = a := rfl
@[simp] theorem Fp2.ofBaseHom_c1 (a : K) : (Fp2.ofBaseHom a).c1 = 0 := rfl

theorem Fp2.ofBase_inj : Function.Injective (Fp2.ofBaseHom (K := K)) := fun _ _ h => congrArg Fp2.c0 h
theorem Fp6.ofFp2_inj : Function.Injective (Fp6.ofFp2Hom (K := K)) := fun _ _ h => congrArg Fp6.c0 h
theorem Fp12.ofFp6_inj : Function.Injective (Fp12.ofFp6Hom (K := K)) := fun _ _ h => congrArg Fp12.c0 h

theorem Fp2.ofBase_pow (a : K) (n : ℕ) : Fp2.ofBase a ^ n = Fp2.ofBase (a ^ n) :=
  (map_pow Fp2.ofBaseHom a n).symm
theorem Fp6.ofFp2_pow (a : Fp2 K) (n : ℕ) : Fp6.ofFp2 a ^ n = Fp6.ofFp2 (a ^ n) :=
  (map_pow Fp6.ofFp2Hom a n).symm
theorem Fp12.ofFp6_pow (a : Fp6 K) (n : ℕ) : Fp12.ofFp6 a ^ n = Fp12.ofFp6 (a ^ n) :=
  (map_pow Fp12.ofFp6Hom a n).symm

/-- Complex conjugation on `F_p²`. -/
def Fp2.conj (x : Fp2 K) : Fp2 K := ⟨x.c0, -x.c1⟩

theorem Fp2.conj_mul (x y : Fp2 K) : (x * y).conj = x.conj * y.conj := by
  ext <;> simp only [conj, mul_c0, mul_c1] <;> ring

theorem Fp2.conj_conj (x : Fp2 K) : x.conj.conj = x := by ext <;> simp [conj]

end

section

variable {K : Type} [Field K] [IsFp K]

instance : CharP K p := IsFp.charP
instance : CharP (Fp2 K) p := charP_of_injective_ringHom Fp2.ofBase_inj p
instance : CharP (Fp6 K) p := charP_of_injective_ringHom Fp6.ofFp2_inj p
instance : CharP (Fp12 K) p := charP_of_injective_ringHom Fp12.ofFp6_inj p

namespace Fp2

theorem pow_p (x : Fp2 K) : x ^ p = x.conj := by
  have hx : x = ofBase x.c0 + ofBase x.c1 * ⟨0, 1⟩ := by ext <;> simp [ofBase]
  have hu : (⟨0, 1⟩ : Fp2 K) ^ 2 = -1 := by rw [sq]; ext <;> simp
  have hp : p = 2 * ((p - 1) / 2) + 1 := by decide +kernel
  have hodd : Odd ((p - 1) / 2) := Nat.odd_iff.2 (by decide +kernel)
  have hup : (⟨0, 1⟩ : Fp2 K) ^ p = -⟨0, 1⟩ := by
    conv_lhs => rw [hp, pow_succ, pow_mul, hu, hodd.neg_one_pow]
    simp
  conv_lhs => rw [hx]
  rw [add_pow_char, mul_pow, hup, ofBase_pow, ofBase_pow, IsFp.pow_p, IsFp.pow_p]
  ext <;> simp [ofBase, conj]

/-- The action of the `k`-th power of Frobenius. -/
def frob (k : ℕ) (x : Fp2 K) : Fp2 K := if k % 2 = 1 then x.conj else x

theorem pow_p_pow (x : Fp2 K) (k : ℕ) : x ^ p ^ k = frob k x := by
  induction k with
  | zero => simp [frob]
  | succ k ih =>
    rw [pow_succ, pow_mul, ih, pow_p, frob, frob]
    rcases Nat.mod_two_eq_zero_or_one k with h | h
    · rw [if_neg (by omega), if_pos (by omega)]
    · rw [if_pos h, if_neg (by omega), conj_conj]

end Fp2

/-- `ξ^((p-1)/6)`. -/
def gam : N2 := N2.pow ⟨1, 1⟩ ((p - 1) / 6)

theorem cast_xi : N2.cast K ⟨1, 1⟩ = Fp2.xi := by ext <;> simp [N2.cast, Fp2.xi]

theorem cast_gam : N2.cast K gam = Fp2.xi ^ ((p - 1) / 6) := by rw [gam, N2.to_pow, cast_xi]

namespace Fp6

theorem v_cube : (v : Fp6 K) ^ 3 = ofFp2 Fp2.xi := by
  have : (v : Fp6 K) ^ 3 = v * (v * v) := by ring
  rw [this]
  ext1 <;> simp [v, ofFp2]

theorem eq_sum (x : Fp6 K) : x = ofFp2 x.c0 + ofFp2 x.c1 * v + ofFp2 x.c2 * (v * v) := by
  ext1 <;> simp [ofFp2, v]

theorem v_pow_p : (v : Fp6 K) ^ p = ofFp2 (N2.cast K gam ^ 2) * v := by
  have hp : p = 3 * ((p - 1) / 6 * 2) + 1 := by decide +kernel
  conv_lhs => rw [hp, pow_succ, pow_mul, v_cube, ofFp2_pow, pow_mul, ← cast_gam]

theorem pow_p (x : Fp6 K) : x ^ p =
    ⟨x.c0.conj, x.c1.conj * N2.cast K gam ^ 2, x.c2.conj * N2.cast K gam ^ 4⟩ := by
  conv_lhs => rw [eq_sum x]
  rw [add_pow_char, add_pow_char, mul_pow, mul_pow, mul_pow, v_pow_p, ofFp2_pow, ofFp2_pow, ofFp2_pow, Fp2.pow_p,
    Fp2.pow_p, Fp2.pow_p]
  generalize N2.cast K gam = g
  ext1
  · simp [ofFp2, v]
  · simp [ofFp2, v]
  · have : g ^ 4 = g ^ 2 * g ^ 2 := by ring
    simp [ofFp2, v, this]

end Fp6

namespace Fp12

theorem w_sq : (w : Fp12 K) ^ 2 = ofFp6 Fp6.v := by
  rw [sq]; ext1 <;> simp [w, ofFp6]

theorem eq_sum (x : Fp12 K) : x = ofFp6 x.c0 + ofFp6 x.c1 * w := by ext1 <;> simp [ofFp6, w]

theorem w_pow_p : (w : Fp12 K) ^ p = ofFp6 (Fp6.ofFp2 (N2.cast K gam)) * w := by
  have hp : p = 2 * (3 * ((p - 1) / 6)) + 1 := by decide +kernel
  conv_lhs => rw [hp, pow_succ, pow_mul, w_sq, ofFp6_pow, pow_mul, Fp6.v_cube, Fp6.ofFp2_pow, ← cast_gam]

theorem pow_p (x : Fp12 K) : x ^ p = ⟨x.c0 ^ p, x.c1 ^ p * Fp6.ofFp2 (N2.cast K gam)⟩ := by
  conv_lhs => rw [eq_sum x]
  rw [add_pow_char, mul_pow, w_pow_p, ofFp6_pow, ofFp6_pow]
  ext1 <;> simp [ofFp6, w]

end Fp12

/-! ## Tables -/

/-- Residues of a table of literal pairs. -/
def unmontTable (t : List (Fp × Fp)) : List N2 := t.map fun e => ⟨unmont e.1, unmont e.2⟩

def T61 : List N2 := unmontTable Fp6.frobeniusCoeffs61W
def T62 : List N2 := unmontTable Fp6.frobeniusCoeffs62W
def T12 : List N2 := unmontTable Fp12.frobeniusCoeffs12W

def tableValid (t : List (Fp × Fp)) : Bool := t.all fun e => decide (e.1.val < p) && decide (e.2.val < p)

end

section

variable {K : Type} [Field K] [FpOps K] [LawfulFp K]

theorem table_eq {t : List (Fp × Fp)} (h : tableValid t = true) :
    (t.map fun e => (⟨FpOps.const e.1, FpOps.const e.2⟩ : Fp2 K)) = (unmontTable t).map (N2.cast K) := by
  rw [unmontTable, List.map_map]
  apply List.map_congr_left
  intro e he
  have := List.all_eq_true.1 h e he
  rw [Bool.and_eq_true, decide_eq_true_iff, decide_eq_true_iff] at this
  exact const2 e.1 e.2 this.1 this.2

theorem frobeniusCoeffs61_eq : (Fp6.frobeniusCoeffs61 : List (Fp2 K)) = T61.map (N2.cast K) :=
  table_eq (by decide +kernel)
theorem frobeniusCoeffs62_eq : (Fp6.frobeniusCoeffs62 : List (Fp2 K)) = T62.map (N2.cast K) :=
  table_eq (by decide +kernel)
theorem frobeniusCoeffs12_eq : (Fp12.frobeniusCoeffs12 : List (Fp2 K)) = T12.map (N2.cast K) :=
  table_eq (by decide +kernel)

end

section

variable {K : Type} [Field K] [IsFp K]

/-- Coefficient of `v` in the `k`-th Frobenius. -/
def A (k : ℕ) : N2 := T61.getD (k % 6) ⟨0, 0⟩
/-- Coefficient of `v²` in the `k`-th Frobenius. -/
def B (k : ℕ) : N2 := T62.getD (k % 6) ⟨0, 0⟩
/-- Coefficient of `w` in the `k`-th Frobenius. -/
def C (k : ℕ) : N2 := T12.getD (k % 12) ⟨0, 0⟩

theorem A_succ (k : ℕ) : N2.cast K (A (k + 1)) = (N2.cast K (A k)).conj * N2.cast K gam ^ 2 := by
  have h : ∀ i : Fin 6, A (i + 1) = (A i).conj.mul (gam.mul gam) := by decide +kernel
  have h' := h ⟨k % 6, Nat.mod_lt _ (by norm_num)⟩
  have e1 : A (k % 6 + 1) = A (k + 1) := by simp [A]
  have e2 : A (k % 6) = A k := by simp [A]
  rw [← e1, ← e2, h', N2.to_mul, N2.to_mul, N2.to_conj, sq]; rfl

theorem B_succ (k : ℕ) : N2.cast K (B (k + 1)) = (N2.cast K (B k)).conj * N2.cast K gam ^ 4 := by
  have h : ∀ i : Fin 6, B (i + 1) = (B i).conj.mul ((gam.mul gam).mul (gam.mul gam)) := by decide +kernel
  have h' := h ⟨k % 6, Nat.mod_lt _ (by norm_num)⟩
  have e1 : B (k % 6 + 1) = B (k + 1) := by simp [B]
  have e2 : B (k % 6) = B k := by simp [B]
  rw [← e1, ← e2, h', N2.to_mul, N2.to_mul, N2.to_mul, N2.to_conj]
  have : N2.cast K gam ^ 4 = N2.cast K gam * N2.cast K gam * (N2.cast K gam * N2.cast K gam) := by ring
  rw [this]; rfl

theorem C_succ (k : ℕ) : N2.cast K (C (k + 1)) = (N2.cast K (C k)).conj * N2.cast K gam := by
  have h : ∀ i : Fin 12, C (i + 1) = (C i).conj.mul gam := by decide +kernel
  have h' := h ⟨k % 12, Nat.mod_lt _ (by norm_num)⟩
  have e1 : C (k % 12 + 1) = C (k + 1) := by simp [C]
  have e2 : C (k % 12) = C k := by simp [C]
  rw [← e1, ← e2, h', N2.to_mul, N2.to_conj]; rfl

theorem A_zero : N2.cast K (A 0) = 1 := by
  have : A 0 = ⟨1, 0⟩ := by decide +kernel
  rw [this, N2.to_one]
theorem B_zero : N2.cast K (B 0) = 1 := by
  have : B 0 = ⟨1, 0⟩ := by decide +kernel
  rw [this, N2.to_one]
theorem C_zero : N2.cast K (C 0) = 1 := by
  have : C 0 = ⟨1, 0⟩ := by decide +kernel
  rw [this, N2.to_one]

theorem Fp2.frob_succ (k : ℕ) (x : Fp2 K) : Fp2.frob (k + 1) x = (Fp2.frob k x).conj := by
  rw [← pow_p_pow, ← pow_p_pow, pow_succ, pow_mul, pow_p]

theorem Fp6.pow_p_pow (x : Fp6 K) (k : ℕ) : x ^ p ^ k =
    ⟨x.c0.frob k, x.c1.frob k * N2.cast K (A k), x.c2.frob k * N2.cast K (B k)⟩ := by
  induction k with
  | zero => rw [A_zero, B_zero]; ext1 <;> simp [Fp2.frob]
  | succ k ih =>
    rw [pow_succ, pow_mul, ih, pow_p, A_succ, B_succ]
    ext1 <;> simp only [Fp2.frob_succ, Fp2.conj_mul] <;> ring

theorem Fp12.pow_p_pow (x : Fp12 K) (k : ℕ) : x ^ p ^ k =
    ⟨x.c0 ^ p ^ k, x.c1 ^ p ^ k * Fp6.ofFp2 (N2.cast K (C k))⟩ := by
  induction k with
  | zero =>
    rw [C_zero]
    have : (Fp6.ofFp2 1 : Fp6 K) = 1 := rfl
    rw [this]; ext1 <;> simp
  | succ k ih =>
    rw [pow_succ, pow_mul, ih, pow_p, C_succ]
    ext1
    · rw [pow_mul]
    · simp only [mul_pow, Fp6.ofFp2_pow, Fp2.pow_p, pow_mul]
      have : Fp6.ofFp2 ((N2.cast K (C k)).conj * N2.cast K gam) =
        Fp6.ofFp2 (N2.cast K (C k)).conj * Fp6.ofFp2 (N2.cast K gam) := map_mul Fp6.ofFp2Hom _ _
      rw [this]; ring

/-! ## The model functions -/

end

section

variable {K : Type} [Field K] [FpOps K] [LawfulFp K]

theorem Fp2.frobeniusMap_eq (x : Fp2 K) (k : ℕ) : x.frobeniusMap k = x ^ p ^ k := by
  rw [Fp2.pow_p_pow, frobeniusMap, frob, LawfulOps.neg_eq]; rfl

theorem getD_61 (k : ℕ) (h : k % 6 = k) : (Fp6.frobeniusCoeffs61 : List (Fp2 K)).getD k Fp6.zero2 =
    N2.cast K (A k) := by
  rw [frobeniusCoeffs61_eq, A, h]
  have hl : k < T61.length := by
    have : T61.length = 6 := by decide +kernel
    omega
  simp [List.getD, hl]

theorem getD_62 (k : ℕ) (h : k % 6 = k) : (Fp6.frobeniusCoeffs62 : List (Fp2 K)).getD k Fp6.zero2 =
    N2.cast K (B k) := by
  rw [frobeniusCoeffs62_eq, B, h]
  have hl : k < T62.length := by
    have : T62.length = 6 := by decide +kernel
    omega
  simp [List.getD, hl]

theorem A_mod (k : ℕ) : A (k % 6) = A k := by simp [A]
theorem B_mod (k : ℕ) : B (k % 6) = B k := by simp [B]

theorem A3 : N2.cast K (A 3) = ⟨0, 1⟩ := by
  have : A 3 = ⟨0, 1⟩ := by decide +kernel
  rw [this]; ext <;> simp [N2.cast]

theorem B3 : N2.cast K (B 3) = -1 := by
  have : B 3 = N2.neg ⟨1, 0⟩ := by decide +kernel
  rw [this, N2.to_neg, N2.to_one]

theorem Fp6.frobeniusMapAssign_eq (x : Fp6 K) (k : ℕ) : x.frobeniusMapAssign k = x ^ p ^ k := by
  rw [Fp6.pow_p_pow, ← A_mod, ← B_mod]
  have hk : k % 6 < 6 := Nat.mod_lt _ (by norm_num)
  have hfr : ∀ y : Fp2 K, y.frobeniusMap k = y.frob k := fun y => by
    rw [Fp2.frobeniusMap_eq, Fp2.pow_p_pow]
  unfold frobeniusMapAssign
  simp only [hfr]
  generalize k % 6 = m at hk ⊢
  match m, hk with
  | 0, _ => rw [A_zero, B_zero, mul_one, mul_one]; rfl
  | 3, _ =>
    rw [A3, B3]
    ext1
    · rfl
    · ext <;> simp [ops_eq]
    · simp [ops_eq]
  | 1, _ =>
    rw [← getD_61 1 rfl, ← getD_62 1 rfl, ← Fp2.mul_eq, ← Fp2.mul_eq]; rfl
  | 2, _ =>
    rw [← getD_61 2 rfl, ← getD_62 2 rfl, ← Fp2.mul_eq, ← Fp2.mul_eq]; rfl
  | 4, _ =>
    rw [← getD_61 4 rfl, ← getD_62 4 rfl, ← Fp2.mul_eq, ← Fp2.mul_eq]; rfl
  | 5, _ =>
    rw [← getD_61 5 rfl, ← getD_62 5 rfl, ← Fp2.mul_eq, ← Fp2.mul_eq]; rfl
  | n + 6, h => omega

/-- The copying map agrees with the in-place one except for powers `≡ 3 mod 6`. -/
theorem Fp6.frobeniusMap_eq (x : Fp6 K) (k : ℕ) (h3 : k % 6 ≠ 3) : x.frobeniusMap k = x ^ p ^ k := by
  rw [← Fp6.frobeniusMapAssign_eq]
  unfold frobeniusMap frobeniusMapAssign
  generalize k % 6 = m at h3 ⊢
  match m, h3 with
  | 0, _ => rfl
  | 1, _ => rfl
  | 2, _ => rfl
  | n + 4, _ => rfl
  | 3, h => exact absurd rfl h

theorem getElem_12 (k : ℕ) (h : k < 12) : (Fp12.frobeniusCoeffs12 : List (Fp2 K))[k]? =
    some (N2.cast K (C k)) := by
  rw [frobeniusCoeffs12_eq, C, Nat.mod_eq_of_lt h]
  have hl : k < T12.length := by
    have : T12.length = 12 := by decide +kernel
    omega
  simp [List.getD, hl]

theorem getElem_12_none (k : ℕ) (h : 12 ≤ k) : (Fp12.frobeniusCoeffs12 : List (Fp2 K))[k]? = none := by
  rw [frobeniusCoeffs12_eq, List.getElem?_eq_none]
  have : T12.length = 12 := by decide +kernel
  rw [List.length_map, this]
  exact h

theorem C6 : N2.cast K (C 6) = -1 := by
  have : C 6 = N2.neg ⟨1, 0⟩ := by decide +kernel
  rw [this, N2.to_neg, N2.to_one]

theorem Fp12.frobenius_tail (y : Fp12 K) (k : ℕ) (h : k < 12) :
    (if k = 0 then some y else if k = 6 then some ⟨y.c0, y.c1.neg⟩
      else match (frobeniusCoeffs12 : List (Fp2 K))[k]? with
        | some e => some ⟨y.c0, y.c1.mulByBaseField e⟩
        | none => none) = some (⟨y.c0, y.c1 * Fp6.ofFp2 (N2.cast K (C k))⟩ : Fp12 K) := by
  by_cases h0 : k = 0
  · subst h0
    rw [if_pos rfl, C_zero]
    have : (Fp6.ofFp2 1 : Fp6 K) = 1 := rfl
    rw [this, mul_one]
  rw [if_neg h0]
  by_cases h6 : k = 6
  · subst h6
    rw [if_pos rfl, C6]
    have : (Fp6.ofFp2 (-1) : Fp6 K) = -1 := map_neg Fp6.ofFp2Hom 1
    rw [this, Fp6.neg_eq, mul_neg_one]
  rw [if_neg h6, getElem_12 k h]
  simp only [ops_eq]

theorem Fp12.frobeniusMapAssign_eq (x : Fp12 K) (k : ℕ) (h : k < 12) :
    x.frobeniusMapAssign k = some (x ^ p ^ k) := by
  rw [Fp12.pow_p_pow, ← Fp6.frobeniusMapAssign_eq, ← Fp6.frobeniusMapAssign_eq]
  exact frobenius_tail ⟨x.c0.frobeniusMapAssign k, x.c1.frobeniusMapAssign k⟩ k h

theorem Fp12.frobeniusMap_eq (x : Fp12 K) (k : ℕ) (h : k < 12) (h3 : k % 6 ≠ 3) :
    x.frobeniusMap k = some (x ^ p ^ k) := by
  rw [Fp12.pow_p_pow, ← Fp6.frobeniusMap_eq _ _ h3, ← Fp6.frobeniusMap_eq _ _ h3]
  exact frobenius_tail ⟨x.c0.frobeniusMap k, x.c1.frobeniusMap k⟩ k h

theorem Fp12.frobeniusMapAssign_none (x : Fp12 K) (k : ℕ) (h : 12 ≤ k) : x.frobeniusMapAssign k = none := by
  unfold frobeniusMapAssign
  rw [if_neg (by omega), if_neg (by omega), getElem_12_none k h]

theorem Fp12.frobeniusMap_none (x : Fp12 K) (k : ℕ) (h : 12 ≤ k) : x.frobeniusMap k = none := by
  unfold frobeniusMap
  rw [if_neg (by omega), if_neg (by omega), getElem_12_none k h]

end

end Bls
