import Verif.Proof.ScalarArith
import Verif.Spec.Carry

/-! Exactly when `scalar::add` and `scalar::multiply` lose a carry. -/

namespace Bls.Scalar

/-- `CarryLost` with a carry into the lowest word. -/
def LostIn (x y c k : ℕ) : Prop := y / 2 ^ (64 * k) % 2 ^ 64 = 2 ^ 64 - 1 ∧ 2 ^ (64 * k) ≤ x % 2 ^ (64 * k) + y % 2 ^ (64 * k) + c

theorem lostIn_zero (x y k : ℕ) : LostIn x y 0 k ↔ CarryLost x y k := by rw [LostIn, CarryLost, add_zero]

theorem add64_le (x y c : UInt64) (hc : c.toNat ≤ 1) :
    (add64 x y c).1.toNat + 2 ^ 64 * (add64 x y c).2.toNat ≤ x.toNat + y.toNat + c.toNat ∧
    ((add64 x y c).1.toNat + 2 ^ 64 * (add64 x y c).2.toNat = x.toNat + y.toNat + c.toNat ↔
      ¬ (y.toNat = 2 ^ 64 - 1 ∧ 1 ≤ c.toNat)) := by
  rw [add64_toNat, add64_carry_toNat]
  have := u64_lt x; have := u64_lt y
  rw [two64] at *
  split <;> omega

theorem lostIn_head (x0 x y0 y c : ℕ) (hy : y0 < 2 ^ 64) : LostIn (x0 + 2 ^ 64 * x) (y0 + 2 ^ 64 * y) c 0 ↔ y0 = 2 ^ 64 - 1 ∧ 1 ≤ c := by
  rw [LostIn, mul_zero, pow_zero, Nat.div_one, Nat.mod_one, Nat.mod_one, Nat.add_mul_mod_self_left, Nat.mod_eq_of_lt hy]
  omega

theorem mod_succ (x0 x k : ℕ) (hx : x0 < 2 ^ 64) : (x0 + 2 ^ 64 * x) % 2 ^ (64 * (k + 1)) = x0 + 2 ^ 64 * (x % 2 ^ (64 * k)) := by
  rw [show 64 * (k + 1) = 64 + 64 * k by ring, pow_add, Nat.mod_mul, Nat.add_mul_mod_self_left, Nat.mod_eq_of_lt hx,
    Nat.add_mul_div_left _ _ (by norm_num), Nat.div_eq_of_lt hx, zero_add]

theorem lostIn_tail (x0 x y0 y c s c1 k : ℕ) (hx : x0 < 2 ^ 64) (hy : y0 < 2 ^ 64) (hs : s < 2 ^ 64)
    (he : s + 2 ^ 64 * c1 = x0 + y0 + c) :
    LostIn (x0 + 2 ^ 64 * x) (y0 + 2 ^ 64 * y) c (k + 1) ↔ LostIn x y c1 k := by
  rw [LostIn, LostIn, mod_succ _ _ _ hx, mod_succ _ _ _ hy]
  have e : (y0 + 2 ^ 64 * y) / 2 ^ (64 * (k + 1)) = y / 2 ^ (64 * k) := by
    rw [show 64 * (k + 1) = 64 + 64 * k by ring, pow_add, ← Nat.div_div_eq_div_mul, Nat.add_mul_div_left _ _ (by norm_num),
      Nat.div_eq_of_lt hy, zero_add]
  rw [e, show 64 * (k + 1) = 64 + 64 * k by ring, pow_add]
  refine and_congr_right fun _ => ?_
  generalize x % 2 ^ (64 * k) = u
  generalize y % 2 ^ (64 * k) = v
  generalize 2 ^ (64 * k) = w
  omega

theorem addLoop_le : ∀ (n : ℕ) (a b : List UInt64) (c : UInt64), a.length ≤ n → b.length ≤ n → c.toNat ≤ 1 →
    (addLoop n a b c).1.length = n ∧ (addLoop n a b c).2.toNat ≤ 1 ∧
    wordsVal (addLoop n a b c).1 + 2 ^ (64 * n) * (addLoop n a b c).2.toNat ≤ wordsVal a + wordsVal b + c.toNat ∧
    (wordsVal (addLoop n a b c).1 + 2 ^ (64 * n) * (addLoop n a b c).2.toNat = wordsVal a + wordsVal b + c.toNat ↔
      ∀ k, ¬ LostIn (wordsVal a) (wordsVal b) c.toNat k)
  | 0, a, b, c, ha, hb, hc => by
    rw [List.length_eq_zero_iff.1 (by omega : a.length = 0), List.length_eq_zero_iff.1 (by omega : b.length = 0)]
    refine ⟨rfl, hc, ?_, ?_⟩
    · simp [addLoop, wordsVal]
    · simp only [addLoop, wordsVal, mul_zero, pow_zero, one_mul, zero_add, true_iff]
      rintro k ⟨h, -⟩
      simp at h
  | n + 1, a, b, c, ha, hb, hc => by
    obtain ⟨h1, h2⟩ := add64_le (a.headD 0) (b.headD 0) c hc
    have hc1 := add64_carry_le (a.headD 0) (b.headD 0) c
    obtain ⟨i1, i2, i3, i4⟩ := addLoop_le n a.tail b.tail (add64 (a.headD 0) (b.headD 0) c).2 (by simpa using ha)
      (by simpa using hb) hc1
    have e1 : (addLoop (n + 1) a b c).1 = (add64 (a.headD 0) (b.headD 0) c).1 ::
      (addLoop n a.tail b.tail (add64 (a.headD 0) (b.headD 0) c).2).1 := rfl
    have e2 : (addLoop (n + 1) a b c).2 = (addLoop n a.tail b.tail (add64 (a.headD 0) (b.headD 0) c).2).2 := rfl
    rw [e1, e2, wordsVal_head_tail a, wordsVal_head_tail b, wordsVal, show 64 * (n + 1) = 64 + 64 * n by ring, pow_add]
    have hx := u64_lt (a.headD 0)
    have hy := u64_lt (b.headD 0)
    have hs := u64_lt (add64 (a.headD 0) (b.headD 0) c).1
    refine ⟨by rw [List.length_cons, i1], i2, ?_, ?_⟩
    · rw [mul_assoc]
      generalize 2 ^ (64 * n) * _ = z at *
      omega
    · rw [mul_assoc]
      have key : (∀ k, ¬ LostIn ((a.headD 0).toNat + 2 ^ 64 * wordsVal a.tail) ((b.headD 0).toNat + 2 ^ 64 * wordsVal b.tail) c.toNat k) ↔
          (¬ ((b.headD 0).toNat = 2 ^ 64 - 1 ∧ 1 ≤ c.toNat)) ∧
          ∀ k, ¬ LostIn ((a.headD 0).toNat + 2 ^ 64 * wordsVal a.tail) ((b.headD 0).toNat + 2 ^ 64 * wordsVal b.tail) c.toNat (k + 1) := by
        constructor
        · intro h
          exact ⟨fun h' => h 0 ((lostIn_head _ _ _ _ _ hy).2 h'), fun k => h (k + 1)⟩
        · rintro ⟨h, h'⟩ k
          cases k with
          | zero => exact fun hh => h ((lostIn_head _ _ _ _ _ hy).1 hh)
          | succ k => exact h' k
      rw [key, ← h2]
      generalize hz : 2 ^ (64 * n) * (addLoop n a.tail b.tail (add64 (a.headD 0) (b.headD 0) c).2).2.toNat = z at *
      constructor
      · intro h
        have hh : (add64 (a.headD 0) (b.headD 0) c).1.toNat + 2 ^ 64 * (add64 (a.headD 0) (b.headD 0) c).2.toNat =
            (a.headD 0).toNat + (b.headD 0).toNat + c.toNat := by omega
        refine ⟨hh, fun k => ?_⟩
        rw [lostIn_tail _ _ _ _ _ _ _ k hx hy hs hh]
        exact i4.1 (by omega) k
      · rintro ⟨hh, hk⟩
        have := i4.2 fun k => by
          have := hk k
          rwa [lostIn_tail _ _ _ _ _ _ _ k hx hy hs hh] at this
        omega

/-- `add` of two arrays. -/
theorem add_exact (nc : Nat) (a b : List UInt64) (hn : max a.length b.length ≤ nc) :
    (∃ c, add nc a b = some c ∧ wordsVal c = wordsVal a + wordsVal b) ↔
      (∀ k, ¬ CarryLost (wordsVal a) (wordsVal b) k) ∧ wordsVal a + wordsVal b < 2 ^ (64 * max a.length b.length) := by
  obtain ⟨h1, h2, h3, h4⟩ := addLoop_le (max a.length b.length) a b 0 (by omega) (by omega) (by decide)
  simp only [UInt64.toNat_zero, add_zero, lostIn_zero] at h3 h4
  have hlt := wordsVal_lt (addLoop (max a.length b.length) a b 0).1
  rw [h1] at hlt
  have hla : wordsVal a < 2 ^ (64 * max a.length b.length) :=
    lt_of_lt_of_le (wordsVal_lt a) (Nat.pow_le_pow_right (by norm_num) (by omega))
  have hlb : wordsVal b < 2 ^ (64 * max a.length b.length) :=
    lt_of_lt_of_le (wordsVal_lt b) (Nat.pow_le_pow_right (by norm_num) (by omega))
  rw [add]
  simp only [add_n]
  rw [if_neg (by omega)]
  by_cases hc : (addLoop (max a.length b.length) a b 0).2 = 0
  · rw [hc, if_neg (by decide)]
    rw [hc, UInt64.toNat_zero, mul_zero, add_zero] at h3 h4
    constructor
    · rintro ⟨c, e, hv⟩
      rw [← Option.some.inj e, wordsVal_append_zeros] at hv
      exact ⟨h4.1 hv, by omega⟩
    · rintro ⟨hl, -⟩
      exact ⟨_, rfl, by rw [wordsVal_append_zeros]; exact h4.2 hl⟩
  · have hc1 : (addLoop (max a.length b.length) a b 0).2.toNat = 1 := by
      have : (addLoop (max a.length b.length) a b 0).2.toNat ≠ 0 := fun h => hc (UInt64.toNat_inj.1 h)
      omega
    rw [if_pos (by rw [gt_iff_lt, UInt64.lt_iff_toNat_lt, hc1]; decide)]
    constructor
    · rintro ⟨c, e, hv⟩
      split at e
      · exact absurd e (by simp)
      rename_i hnc
      exfalso
      have e := Option.some.inj e
      -- the word above the top of the sum is not zero
      have hw : (c.getD (max a.length b.length + 1) 0).toNat = 1 := by
        rw [← e, List.getD_eq_getElem?_getD, List.getElem?_set_self (by rw [List.length_append, h1, List.length_replicate]; omega)]
        exact hc1
      rw [getD_val, hv] at hw
      have : (wordsVal a + wordsVal b) / 2 ^ (64 * (max a.length b.length + 1)) = 0 := by
        refine Nat.div_eq_of_lt ?_
        rw [show 64 * (max a.length b.length + 1) = 64 + 64 * max a.length b.length by ring, pow_add]
        omega
      rw [this] at hw
      exact absurd hw (by decide)
    · rintro ⟨-, hlt'⟩
      exfalso
      rw [hc1] at h3
      omega

/-- `add` of two arrays of the result's length whose sum fits. -/
theorem add_le (nc : Nat) (a b : List UInt64) (ha : a.length = nc) (hb : b.length = nc)
    (hs : wordsVal a + wordsVal b < 2 ^ (64 * nc)) :
    ∃ c, add nc a b = some c ∧ c.length = nc ∧ wordsVal c ≤ wordsVal a + wordsVal b ∧
      (wordsVal c = wordsVal a + wordsVal b ↔ ∀ k, ¬ CarryLost (wordsVal a) (wordsVal b) k) := by
  obtain ⟨h1, h2, h3, h4⟩ := addLoop_le nc a b 0 (by omega) (by omega) (by decide)
  simp only [UInt64.toNat_zero, add_zero, lostIn_zero] at h3 h4
  have hc : (addLoop nc a b 0).2 = 0 := by
    apply UInt64.toNat_inj.1
    rw [UInt64.toNat_zero]
    by_contra h
    have : (addLoop nc a b 0).2.toNat = 1 := by omega
    rw [this] at h3
    omega
  rw [hc, UInt64.toNat_zero, mul_zero, add_zero] at h3 h4
  refine ⟨(addLoop nc a b 0).1, ?_, h1, h3, h4⟩
  rw [add]
  simp only [ha, hb, gt_iff_lt, lt_irrefl, if_false]
  rw [hc, if_neg (by decide), Nat.sub_self, List.replicate_zero, List.append_nil]

/-- The rows of a product are added without loss. -/
def RowsExact (a : ℕ) : List UInt64 → ℕ → ℕ → Prop
  | [], _, _ => True
  | w :: ws, i, c => (∀ k, ¬ CarryLost c (2 ^ (64 * i) * (a * w.toNat)) k) ∧ RowsExact a ws (i + 1) (c + 2 ^ (64 * i) * (a * w.toNat))

theorem mulLoop_le (nc : Nat) (a : List UInt64) : ∀ (b : List UInt64) (i : Nat) (c : List UInt64) (v : ℕ),
    c.length = nc → a.length + b.length + i ≤ nc → wordsVal c ≤ v →
    v + 2 ^ (64 * i) * (wordsVal a * wordsVal b) < 2 ^ (64 * nc) →
    ∃ r, mulLoop nc a b i c = some r ∧ r.length = nc ∧
      wordsVal r ≤ v + 2 ^ (64 * i) * (wordsVal a * wordsVal b) ∧
      (wordsVal r = v + 2 ^ (64 * i) * (wordsVal a * wordsVal b) ↔ wordsVal c = v ∧ RowsExact (wordsVal a) b i v)
  | [], i, c, v, hc, _, hv, _ => ⟨c, rfl, hc, by simpa [wordsVal] using hv, by simp [wordsVal, RowsExact]⟩
  | w :: ws, i, c, v, hc, hl, hv, hlt => by
    rw [List.length_cons] at hl
    obtain ⟨r, hr, hrl, hrv⟩ := mulRow_spec w a (List.replicate i 0) 0 (nc - i - 1) (by omega)
    have hbuf : List.replicate i (0 : UInt64) ++ 0 :: List.replicate (nc - i - 1) 0 = List.replicate nc 0 := by
      rw [← List.replicate_succ, List.replicate_append_replicate]
      congr 1; omega
    rw [hbuf, List.length_replicate] at hr
    rw [UInt64.toNat_zero, zero_add] at hrv
    have hbv : wordsVal (List.replicate i 0 ++ r) = 2 ^ (64 * i) * (wordsVal a * w.toNat) := by
      rw [wordsVal_append, wordsVal_replicate, hrv, List.length_replicate, zero_add]
    have hbl : (List.replicate i (0 : UInt64) ++ r).length = nc := by
      rw [List.length_append, List.length_replicate, hrl]; omega
    rw [wordsVal] at hlt
    have hpow : 2 ^ (64 * (i + 1)) = 2 ^ (64 * i) * 2 ^ 64 := by rw [← pow_add]; congr 1
    have e : v + 2 ^ (64 * i) * (wordsVal a * (w.toNat + 2 ^ 64 * wordsVal ws)) =
        v + 2 ^ (64 * i) * (wordsVal a * w.toNat) + 2 ^ (64 * (i + 1)) * (wordsVal a * wordsVal ws) := by
      rw [hpow]; ring
    rw [e] at hlt
    obtain ⟨c', hadd, hcl, hcv, hce⟩ := add_le nc c (List.replicate i 0 ++ r) hc hbl (by rw [hbv]; omega)
    rw [hbv] at hcv hce
    obtain ⟨res, h1, h2, h3, h4⟩ := mulLoop_le nc a ws (i + 1) c' (v + 2 ^ (64 * i) * (wordsVal a * w.toNat)) hcl (by omega)
      (by omega) hlt
    refine ⟨res, ?_, h2, ?_, ?_⟩
    · rw [mulLoop, hr]
      dsimp only
      rw [hadd]
      exact h1
    · rw [wordsVal, e]; exact h3
    · rw [wordsVal, e, h4, RowsExact]
      constructor
      · rintro ⟨k1, k2⟩
        have hcv' : wordsVal c = v := by omega
        subst hcv'
        exact ⟨rfl, hce.1 k1, k2⟩
      · rintro ⟨rfl, k1, k2⟩
        exact ⟨hce.2 k1, k2⟩

theorem rowsExact_iff (a : ℕ) : ∀ (b : List UInt64) (i c : ℕ), RowsExact a b i c ↔
    ∀ j w, b[j]? = some w → ∀ k, ¬ CarryLost (c + 2 ^ (64 * i) * (a * (wordsVal b % 2 ^ (64 * j)))) (2 ^ (64 * (i + j)) * (a * w.toNat)) k
  | [], i, c => by simp [RowsExact]
  | w :: ws, i, c => by
    rw [RowsExact, rowsExact_iff a ws (i + 1)]
    have hw := u64_lt w
    have e : ∀ j, c + 2 ^ (64 * i) * (a * ((w.toNat + 2 ^ 64 * wordsVal ws) % 2 ^ (64 * (j + 1)))) =
        c + 2 ^ (64 * i) * (a * w.toNat) + 2 ^ (64 * (i + 1)) * (a * (wordsVal ws % 2 ^ (64 * j))) := fun j => by
      rw [mod_succ _ _ _ hw, show 64 * (i + 1) = 64 * i + 64 by ring, pow_add]
      ring
    constructor
    · rintro ⟨h1, h2⟩ j w' hj k
      cases j with
      | zero =>
        obtain rfl : w = w' := by simpa using hj
        rw [mul_zero, pow_zero, Nat.mod_one, mul_zero, mul_zero, add_zero, add_zero]
        exact h1 k
      | succ j =>
        rw [wordsVal, e, show i + (j + 1) = i + 1 + j by ring]
        exact h2 j w' (by simpa using hj) k
    · intro h
      constructor
      · intro k
        have := h 0 w (by simp) k
        rwa [mul_zero, pow_zero, Nat.mod_one, mul_zero, mul_zero, add_zero, add_zero] at this
      · intro j w' hj k
        have := h (j + 1) w' (by simpa using hj) k
        rwa [wordsVal, e, show i + (j + 1) = i + 1 + j by ring] at this

theorem multiply_le (nc : Nat) (a b : List UInt64) (hn : a.length + b.length ≤ nc) :
    ∃ r, multiply nc a b = some r ∧ r.length = nc ∧ wordsVal r ≤ wordsVal a * wordsVal b ∧
      (wordsVal r = wordsVal a * wordsVal b ↔ ∀ j w, b[j]? = some w → ∀ k,
        ¬ CarryLost (wordsVal a * (wordsVal b % 2 ^ (64 * j))) (2 ^ (64 * j) * (wordsVal a * w.toNat)) k) := by
  have hlt : wordsVal a * wordsVal b < 2 ^ (64 * nc) := by
    calc wordsVal a * wordsVal b < 2 ^ (64 * a.length) * 2 ^ (64 * b.length) :=
          Nat.mul_lt_mul'' (wordsVal_lt a) (wordsVal_lt b)
      _ = 2 ^ (64 * (a.length + b.length)) := by rw [← pow_add]; congr 1; ring
      _ ≤ 2 ^ (64 * nc) := Nat.pow_le_pow_right (by norm_num) (by omega)
  obtain ⟨r, h1, h2, h3, h4⟩ := mulLoop_le nc a b 0 (List.replicate nc 0) 0 (by simp) (by omega) (by rw [wordsVal_replicate])
    (by simpa using hlt)
  simp only [mul_zero, pow_zero, one_mul, zero_add] at h3 h4
  refine ⟨r, h1, h2, h3, ?_⟩
  rw [h4, rowsExact_iff]
  simp only [wordsVal_replicate, mul_zero, pow_zero, one_mul, zero_add, true_and]

/-- Too short results: some row leaves the buffer. -/
theorem mulLoop_none (nc : Nat) (a : List UInt64) (ha : a ≠ []) : ∀ (b : List UInt64) (i : Nat) (c : List UInt64), b ≠ [] →
    nc < a.length + b.length + i → mulLoop nc a b i c = none
  | [], _, _, h, _ => absurd rfl h
  | w :: ws, i, c, _, hl => by
    rw [mulLoop]
    cases hr : mulRow w a i (List.replicate nc 0) with
    | none => rfl
    | some buf =>
      dsimp only
      cases add nc c buf with
      | none => rfl
      | some c' =>
        dsimp only
        cases ws with
        | nil =>
          rw [mulRow_none w a i _ ha (by rw [List.length_replicate]; simp at hl; omega)] at hr
          exact absurd hr (by simp)
        | cons w' ws' =>
          apply mulLoop_none nc a ha (w' :: ws') _ _ (by simp)
          simp only [List.length_cons] at *
          omega

end Bls.Scalar
