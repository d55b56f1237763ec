import Verif.Proof.Bytes
import Verif.Proof.Word
import Mathlib.Tactic.LinearCombination

/-! `scalar::add` and `scalar::multiply`. -/

namespace Bls.Scalar

theorem wordsVal_head_tail (a : List UInt64) : wordsVal a = (a.headD 0).toNat + 2 ^ 64 * wordsVal a.tail := by
  cases a <;> simp [wordsVal]

/-- The carry loop is exact when no word of the second operand is `2^64-1`. -/
theorem addLoop_spec : ∀ (n : ℕ) (a b : List UInt64) (c : UInt64), a.length ≤ n → b.length ≤ n → c.toNat ≤ 1 →
    (∀ w ∈ b, w.toNat ≠ 2 ^ 64 - 1) →
    (addLoop n a b c).1.length = n ∧ (addLoop n a b c).2.toNat ≤ 1 ∧
    wordsVal (addLoop n a b c).1 + 2 ^ (64 * n) * (addLoop n a b c).2.toNat = wordsVal a + wordsVal b + c.toNat
  | 0, a, b, c, ha, hb, hc, _ => by
    rw [List.length_eq_zero_iff.1 (by omega : a.length = 0), List.length_eq_zero_iff.1 (by omega : b.length = 0)]
    simp [addLoop, wordsVal, hc]
  | n + 1, a, b, c, ha, hb, hc, h => by
    have hw : (b.headD 0).toNat ≠ 2 ^ 64 - 1 := by
      cases b with
      | nil => decide
      | cons x xs => exact h x (by simp)
    obtain ⟨h1, h2⟩ := add64_spec (a.headD 0) (b.headD 0) c hc (Or.inl hw)
    obtain ⟨i1, i2, i3⟩ := addLoop_spec n a.tail b.tail (add64 (a.headD 0) (b.headD 0) c).2 (by simpa using ha)
      (by simpa using hb) h2 (fun w hw => h w (List.mem_of_mem_tail hw))
    refine ⟨?_, by rw [addLoop]; exact i2, ?_⟩
    · simp only [addLoop, List.length_cons, i1]
    · rw [wordsVal_head_tail a, wordsVal_head_tail b]
      simp only [addLoop, wordsVal]
      rw [show 64 * (n + 1) = 64 + 64 * n by ring, pow_add]
      linear_combination 2 ^ 64 * i3 + h1

theorem add_n (a b : List UInt64) : (if b.length > a.length then b.length else a.length) =
    max a.length b.length := by split <;> omega

theorem wordsVal_append_zeros (s : List UInt64) (n : Nat) : wordsVal (s ++ List.replicate n 0) = wordsVal s := by
  rw [wordsVal_append, wordsVal_replicate]; simp

/-- `add` is exact when the sum fits in the operands' words and no word of `b` is `2^64-1`. -/
theorem add_spec (nc : Nat) (a b : List UInt64) (hn : max a.length b.length ≤ nc)
    (hb : ∀ w ∈ b, w.toNat ≠ 2 ^ 64 - 1) (hs : wordsVal a + wordsVal b < 2 ^ (64 * max a.length b.length)) :
    ∃ c, add nc a b = some c ∧ c.length = nc ∧ wordsVal c = wordsVal a + wordsVal b := by
  obtain ⟨h1, h2, h3⟩ := addLoop_spec (max a.length b.length) a b 0 (by omega) (by omega) (by decide) hb
  rw [UInt64.toNat_zero, add_zero] at h3
  have hc : (addLoop (max a.length b.length) a b 0).2.toNat = 0 := by
    by_contra hne
    have : (addLoop (max a.length b.length) a b 0).2.toNat = 1 := by omega
    rw [this] at h3
    omega
  have hc' : (addLoop (max a.length b.length) a b 0).2 = 0 := UInt64.toNat_inj.1 hc
  refine ⟨(addLoop (max a.length b.length) a b 0).1 ++ List.replicate (nc - max a.length b.length) 0, ?_, ?_, ?_⟩
  · rw [add]
    simp only [add_n]
    rw [if_neg (by omega), hc', if_neg (by decide)]
  · rw [List.length_append, h1, List.length_replicate]; omega
  · rw [wordsVal_append_zeros, ← h3, hc]; simp

/-- With a final carry `add` never returns the sum. -/
theorem add_carry (nc : Nat) (a b : List UInt64) (hb : ∀ w ∈ b, w.toNat ≠ 2 ^ 64 - 1)
    (hs : 2 ^ (64 * max a.length b.length) ≤ wordsVal a + wordsVal b) (c : List UInt64) (h : add nc a b = some c) :
    wordsVal c ≠ wordsVal a + wordsVal b := by
  obtain ⟨h1, h2, h3⟩ := addLoop_spec (max a.length b.length) a b 0 (by omega) (by omega) (by decide) hb
  rw [UInt64.toNat_zero, add_zero] at h3
  have hlt := wordsVal_lt (addLoop (max a.length b.length) a b 0).1
  rw [h1] at hlt
  have hc : (addLoop (max a.length b.length) a b 0).2.toNat = 1 := by
    by_contra hne
    have : (addLoop (max a.length b.length) a b 0).2.toNat = 0 := by omega
    rw [this] at h3
    omega
  have hc' : (addLoop (max a.length b.length) a b 0).2 = 1 := UInt64.toNat_inj.1 hc
  rw [add] at h
  simp only [add_n] at h
  rw [hc'] at h
  split at h
  · exact absurd h (by simp)
  rename_i hle
  rw [if_pos (by decide)] at h
  split at h
  · exact absurd h (by simp)
  rename_i hnc
  have h := (Option.some.inj h).symm
  have hlen : (addLoop (max a.length b.length) a b 0).1.length + 1 = max a.length b.length + 1 := by rw [h1]
  have e : nc - max a.length b.length = (nc - max a.length b.length - 2) + 2 := by omega
  rw [e, List.replicate_succ, List.replicate_succ] at h
  have hset : ((addLoop (max a.length b.length) a b 0).1 ++ (0 : UInt64) :: 0 :: List.replicate (nc - max a.length b.length - 2) 0).set
      (max a.length b.length + 1) 1 =
      (addLoop (max a.length b.length) a b 0).1 ++ 0 :: 1 :: List.replicate (nc - max a.length b.length - 2) 0 := by
    rw [← hlen, List.set_append_right _ _ (by omega)]
    congr 1
    rw [show (addLoop (max a.length b.length) a b 0).1.length + 1 - (addLoop (max a.length b.length) a b 0).1.length = 1 by omega]
    rfl
  rw [hset] at h
  rw [h, wordsVal_append, wordsVal, wordsVal, wordsVal_replicate, ← h3, hc, h1]
  simp only [UInt64.toNat_zero, UInt64.toNat_one]
  have : 0 < 2 ^ (64 * max a.length b.length) := by positivity
  intro hcontra
  have : 2 ^ (64 * max a.length b.length) * (0 + 2 ^ 64 * (1 + 2 ^ 64 * 0)) =
    2 ^ (64 * max a.length b.length) * 1 := by omega
  have := Nat.eq_of_mul_eq_mul_left (by positivity) this
  omega

/-! ## multiply -/

/-- One row: words `< k` unchanged, the rest holds `x + a*w` at offset `k`, where `x` is the word at `k`. -/
theorem mulRow_spec (w : UInt64) : ∀ (a : List UInt64) (pre : List UInt64) (x : UInt64) (m : Nat),
    a.length ≤ m → ∃ r, mulRow w a pre.length (pre ++ x :: List.replicate m 0) = some (pre ++ r) ∧
      r.length = m + 1 ∧ wordsVal r = x.toNat + wordsVal a * w.toNat
  | [], pre, x, m, _ => ⟨x :: List.replicate m 0, rfl, by simp, by
      simp only [wordsVal]; rw [wordsVal_replicate]; ring⟩
  | a :: as, pre, x, 0, h => by simp at h
  | a :: as, pre, x, m + 1, h => by
    have hm := mul64_spec a w
    have hhi : (mul64 a w).1.toNat ≤ 2 ^ 64 - 2 := by
      have ha := u64_lt a
      have hw := u64_lt w
      have h1 : a.toNat * w.toNat ≤ (2 ^ 64 - 1) * (2 ^ 64 - 1) := Nat.mul_le_mul (by omega) (by omega)
      have : (2 ^ 64 - 1) * (2 ^ 64 - 1) = 2 ^ 64 * (2 ^ 64 - 2) + 1 := by norm_num
      have := u64_lt (mul64 a w).2
      generalize a.toNat * w.toNat = z at *
      omega
    have h1 := add64_spec0 x (mul64 a w).2
    have hc1 := add64_carry_le x (mul64 a w).2 0
    have h2 := add64_spec 0 (mul64 a w).1 (add64 x (mul64 a w).2 0).2 hc1 (Or.inl (by omega))
    have hc2 : (add64 0 (mul64 a w).1 (add64 x (mul64 a w).2 0).2).2.toNat = 0 := by
      have := h2.1
      have := u64_lt (add64 0 (mul64 a w).1 (add64 x (mul64 a w).2 0).2).1
      simp only [UInt64.toNat_zero] at *
      omega
    obtain ⟨r, hr, hl, hv⟩ := mulRow_spec w as (pre ++ [(add64 x (mul64 a w).2 0).1])
      (add64 0 (mul64 a w).1 (add64 x (mul64 a w).2 0).2).1 m (by simpa using h)
    refine ⟨(add64 x (mul64 a w).2 0).1 :: r, ?_, by simp [hl], ?_⟩
    · have g0 : (pre ++ x :: List.replicate (m + 1) 0)[pre.length]? = some x := by simp
      have g1 : (pre ++ x :: List.replicate (m + 1) 0)[pre.length + 1]? = some 0 := by
        rw [List.getElem?_append_right (by omega)]
        simp
      rw [mulRow, g0, g1]
      dsimp only
      have hset : ((pre ++ x :: List.replicate (m + 1) 0).set pre.length (add64 x (mul64 a w).2 0).1).set
          (pre.length + 1) (add64 0 (mul64 a w).1 (add64 x (mul64 a w).2 0).2).1 =
          (pre ++ [(add64 x (mul64 a w).2 0).1]) ++
            (add64 0 (mul64 a w).1 (add64 x (mul64 a w).2 0).2).1 :: List.replicate m 0 := by
        rw [List.set_append_right _ _ (by omega), List.set_append_right _ _ (by omega)]
        simp [List.replicate_succ]
      rw [hset]
      have hpl : (pre ++ [(add64 x (mul64 a w).2 0).1]).length = pre.length + 1 := by simp
      rw [hpl] at hr
      rw [hr]
      simp
    · have h2' := h2.1
      rw [hc2] at h2'
      simp only [UInt64.toNat_zero] at h2'
      rw [wordsVal, hv, wordsVal]
      linear_combination h1 + 2 ^ 64 * h2' + hm

/-- The rows of the product contain no word `2^64-1`. -/
def RowsOk (a b : List UInt64) : Prop :=
  ∀ w ∈ b, ∀ k : Nat, wordsVal a * w.toNat / 2 ^ (64 * k) % 2 ^ 64 ≠ 2 ^ 64 - 1

theorem mem_getD {s : List UInt64} {w : UInt64} (h : w ∈ s) : ∃ i, s.getD i 0 = w := by
  obtain ⟨i, hi⟩ := List.mem_iff_getElem?.1 h
  exact ⟨i, by rw [List.getD_eq_getElem?_getD, hi]; rfl⟩

theorem mulLoop_spec (nc : Nat) (a : List UInt64) : ∀ (b : List UInt64) (i : Nat) (c : List UInt64),
    c.length = nc → a.length + b.length + i ≤ nc → RowsOk a b →
    wordsVal c + 2 ^ (64 * i) * (wordsVal a * wordsVal b) < 2 ^ (64 * nc) →
    ∃ r, mulLoop nc a b i c = some r ∧ r.length = nc ∧
      wordsVal r = wordsVal c + 2 ^ (64 * i) * (wordsVal a * wordsVal b)
  | [], i, c, hc, _, _, _ => ⟨c, rfl, hc, by simp [wordsVal]⟩
  | w :: ws, i, c, hc, hl, hok, hlt => by
    rw [List.length_cons] at hl
    obtain ⟨r, hr, hrl, hrv⟩ := mulRow_spec w a (List.replicate i 0) 0 (nc - i - 1) (by omega)
    have hbuf : List.replicate i (0 : UInt64) ++ 0 :: List.replicate (nc - i - 1) 0 = List.replicate nc 0 := by
      rw [← List.replicate_succ, List.replicate_append_replicate]
      congr 1; omega
    rw [hbuf, List.length_replicate] at hr
    rw [UInt64.toNat_zero, zero_add] at hrv
    have hbv : wordsVal (List.replicate i 0 ++ r) = 2 ^ (64 * i) * (wordsVal a * w.toNat) := by
      rw [wordsVal_append, wordsVal_replicate, hrv, List.length_replicate, zero_add]
    have hbl : (List.replicate i (0 : UInt64) ++ r).length = nc := by
      rw [List.length_append, List.length_replicate, hrl]; omega
    have hmax : max c.length (List.replicate i (0 : UInt64) ++ r).length = nc := by rw [hc, hbl, max_self]
    have hnn : ∀ x ∈ List.replicate i (0 : UInt64) ++ r, x.toNat ≠ 2 ^ 64 - 1 := by
      intro x hx
      rw [List.mem_append] at hx
      rcases hx with hx | hx
      · rw [(List.mem_replicate.1 hx).2]; decide
      · obtain ⟨k, rfl⟩ := mem_getD hx
        rw [getD_val, hrv]
        exact hok w (by simp) k
    rw [wordsVal] at hlt
    have hpow : 2 ^ (64 * (i + 1)) = 2 ^ (64 * i) * 2 ^ 64 := by rw [← pow_add]; congr 1
    have e : wordsVal c + 2 ^ (64 * i) * (wordsVal a * (w.toNat + 2 ^ 64 * wordsVal ws)) =
        wordsVal c + 2 ^ (64 * i) * (wordsVal a * w.toNat) + 2 ^ (64 * (i + 1)) * (wordsVal a * wordsVal ws) := by
      rw [hpow]; ring
    rw [e] at hlt
    obtain ⟨c', hadd, hcl, hcv⟩ := add_spec nc c (List.replicate i 0 ++ r) (by rw [hmax]) hnn (by
      rw [hmax, hbv]; omega)
    rw [hbv] at hcv
    obtain ⟨res, h1, h2, h3⟩ := mulLoop_spec nc a ws (i + 1) c' hcl (by omega)
      (fun x hx => hok x (by simp [hx])) (by rw [hcv]; exact hlt)
    refine ⟨res, ?_, h2, ?_⟩
    · rw [mulLoop, hr]
      dsimp only
      rw [hadd]
      exact h1
    · rw [h3, hcv, wordsVal, e]

theorem multiply_spec (nc : Nat) (a b : List UInt64) (hn : a.length + b.length ≤ nc) (hok : RowsOk a b) :
    ∃ r, multiply nc a b = some r ∧ r.length = nc ∧ wordsVal r = wordsVal a * wordsVal b := by
  have hlt : wordsVal a * wordsVal b < 2 ^ (64 * nc) := by
    calc wordsVal a * wordsVal b < 2 ^ (64 * a.length) * 2 ^ (64 * b.length) :=
          Nat.mul_lt_mul'' (wordsVal_lt a) (wordsVal_lt b)
      _ = 2 ^ (64 * (a.length + b.length)) := by rw [← pow_add]; congr 1; ring
      _ ≤ 2 ^ (64 * nc) := Nat.pow_le_pow_right (by norm_num) (by omega)
  obtain ⟨r, h1, h2, h3⟩ := mulLoop_spec nc a b 0 (List.replicate nc 0) (by simp) (by omega) hok
    (by rw [wordsVal_replicate]; simpa using hlt)
  refine ⟨r, h1, h2, ?_⟩
  rw [h3, wordsVal_replicate]; simp

/-- Products that do not fit the code's row indices: the last row index `NA+NB-1` must be below `NC`. -/
theorem mulRow_none (w : UInt64) : ∀ (a : List UInt64) (k : Nat) (buf : List UInt64), a ≠ [] →
    buf.length < a.length + k + 1 → mulRow w a k buf = none
  | [], _, _, h, _ => absurd rfl h
  | x :: as, k, buf, _, hl => by
    rw [mulRow]
    cases h0 : buf[k]? with
    | none => rfl
    | some u =>
      cases h1 : buf[k + 1]? with
      | none => rfl
      | some v =>
        dsimp only
        cases as with
        | nil =>
          rw [List.getElem?_eq_none (by simp at hl; omega)] at h1
          cases h1
        | cons y ys =>
          apply mulRow_none w (y :: ys) _ _ (by simp)
          simp only [List.length_set, List.length_cons] at *
          omega

end Bls.Scalar
