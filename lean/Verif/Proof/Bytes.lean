import Verif.Model.Bytes
import Verif.Spec.Bytes
import Verif.Proof.Scalar
import Mathlib.Tactic.Ring

/-! Byte codecs. -/

namespace Bls

theorem u8_lt (b : UInt8) : b.toNat < 256 := b.toNat_lt

theorem leVal_append : ∀ a b : List UInt8, leVal (a ++ b) = leVal a + 256 ^ a.length * leVal b
  | [], b => by simp [leVal]
  | x :: a, b => by
    rw [List.cons_append, leVal, leVal, leVal_append a b, List.length_cons, pow_succ]; ring

theorem leVal_lt : ∀ a : List UInt8, leVal a < 256 ^ a.length
  | [] => by simp [leVal]
  | x :: a => by
    have h := leVal_lt a
    have hx := u8_lt x
    rw [leVal, List.length_cons, pow_succ]
    omega

theorem leVal_inj : ∀ {a b : List UInt8}, a.length = b.length → leVal a = leVal b → a = b
  | [], [], _, _ => rfl
  | x :: a, y :: b, hl, h => by
    rw [leVal, leVal] at h
    have hx := u8_lt x
    have hy := u8_lt y
    have h1 : x.toNat = y.toNat := by omega
    have h2 : leVal a = leVal b := by omega
    rw [UInt8.toNat_inj.1 h1, leVal_inj (Nat.succ.inj hl) h2]
  | [], _ :: _, hl, _ => by simp at hl
  | _ :: _, [], hl, _ => by simp at hl

theorem beVal_eq (bs : List UInt8) : beVal bs = leVal bs.reverse := by
  have h : ∀ (bs : List UInt8) (a : Nat), bs.foldl (fun a b => 256 * a + b.toNat) a =
      leVal bs.reverse + 256 ^ bs.length * a := by
    intro bs
    induction bs with
    | nil => intro a; simp [leVal]
    | cons b bs ih =>
      intro a
      rw [List.foldl_cons, ih, List.reverse_cons, leVal_append, List.length_reverse, List.length_cons, leVal, leVal,
        pow_succ]
      ring
  rw [beVal, h]; simp

theorem beVal_inj {a b : List UInt8} (hl : a.length = b.length) (h : beVal a = beVal b) : a = b := by
  rw [beVal_eq, beVal_eq] at h
  exact List.reverse_inj.1 (leVal_inj (by simpa using hl) h)

theorem beVal_lt (a : List UInt8) : beVal a < 256 ^ a.length := by
  rw [beVal_eq]; simpa using leVal_lt a.reverse

namespace Scalar

theorem byte_toNat (w : UInt64) (k : UInt64) (hk : k.toNat < 64) :
    (w >>> k).toUInt8.toNat = w.toNat / 2 ^ k.toNat % 256 := by
  rw [UInt64.toNat_toUInt8, UInt64.toNat_shiftRight, Nat.mod_eq_of_lt hk, Nat.shiftRight_eq_div_pow]

theorem toBytesLE_length (s : List UInt64) : (toBytesLE s).length = 8 * s.length := by
  induction s with
  | nil => rfl
  | cons w s ih => rw [toBytesLE] at *; simp only [List.flatMap_cons, List.length_append, ih, List.length_cons,
      List.length_nil]; omega

theorem toBytesBE_eq (s : List UInt64) : toBytesBE s = (toBytesLE s).reverse := by
  have : ∀ s : List UInt64, (toBytesLE s.reverse).reverse = toBytesBE s.reverse.reverse.reverse := by
    intro s
    induction s with
    | nil => rfl
    | cons w s ih =>
      rw [toBytesLE, toBytesBE] at *
      simp only [List.reverse_reverse, List.reverse_cons, List.flatMap_append, List.reverse_append,
        List.flatMap_cons, List.flatMap_nil, List.append_nil] at *
      rw [ih]
      rfl
  have h := this s.reverse
  rw [List.reverse_reverse, List.reverse_reverse] at h
  exact h.symm

theorem toBytesLE_val (s : List UInt64) : leVal (toBytesLE s) = wordsVal s := by
  induction s with
  | nil => rfl
  | cons w s ih =>
    have hb : ∀ k : UInt64, k.toNat < 64 → _ := fun k hk => byte_toNat w k hk
    rw [toBytesLE, List.flatMap_cons, leVal_append, wordsVal]
    rw [toBytesLE] at ih
    rw [ih]
    simp only [leVal, List.length_cons, List.length_nil]
    rw [byte_toNat w 8 (by decide), byte_toNat w 16 (by decide), byte_toNat w 24 (by decide),
      byte_toNat w 32 (by decide), byte_toNat w 40 (by decide), byte_toNat w 48 (by decide),
      byte_toNat w 56 (by decide), UInt64.toNat_toUInt8]
    have := u64_lt w
    simp only [UInt64.reduceToNat]
    generalize wordsVal s = v
    generalize w.toNat = n at *
    omega

theorem toBytesBE_val (s : List UInt64) : beVal (toBytesBE s) = wordsVal s := by
  rw [beVal_eq, toBytesBE_eq, List.reverse_reverse, toBytesLE_val]

theorem toBytesBE_length (s : List UInt64) : (toBytesBE s).length = 8 * s.length := by
  rw [toBytesBE_eq, List.length_reverse, toBytesLE_length]

/-- Adding a byte above the bits already set. -/
theorem or_shift (a : UInt64) (b : UInt8) (k : UInt64) (hk : k.toNat ≤ 56) (ha : a.toNat < 2 ^ k.toNat) :
    (a ||| b.toUInt64 <<< k).toNat = a.toNat + 2 ^ k.toNat * b.toNat ∧
    (a ||| b.toUInt64 <<< k).toNat < 2 ^ (k.toNat + 8) := by
  have hb := u8_lt b
  have hs : (b.toUInt64 <<< k).toNat = b.toNat <<< k.toNat := by
    rw [UInt64.toNat_shiftLeft, Nat.mod_eq_of_lt (show k.toNat < 64 by omega), UInt8.toNat_toUInt64,
      Nat.mod_eq_of_lt]
    rw [Nat.shiftLeft_eq]
    calc b.toNat * 2 ^ k.toNat < 256 * 2 ^ k.toNat := Nat.mul_lt_mul_of_pos_right hb (by positivity)
      _ ≤ 256 * 2 ^ 56 := Nat.mul_le_mul_left _ (Nat.pow_le_pow_right (by norm_num) hk)
      _ = 2 ^ 64 := by norm_num
  have e : (a ||| b.toUInt64 <<< k).toNat = a.toNat + 2 ^ k.toNat * b.toNat := by
    rw [UInt64.toNat_or, hs, Nat.or_comm, ← Nat.shiftLeft_add_eq_or_of_lt ha, Nat.shiftLeft_eq]; ring
  refine ⟨e, ?_⟩
  rw [e, pow_add]
  have : 2 ^ k.toNat * b.toNat ≤ 2 ^ k.toNat * 255 := Nat.mul_le_mul_left _ (by omega)
  omega

theorem leWord_toNat (b0 b1 b2 b3 b4 b5 b6 b7 : UInt8) :
    (leWord b0 b1 b2 b3 b4 b5 b6 b7).toNat = leVal [b0, b1, b2, b3, b4, b5, b6, b7] := by
  have h0 : b0.toUInt64.toNat < 2 ^ (8 : UInt64).toNat := by rw [UInt8.toNat_toUInt64]; exact u8_lt b0
  obtain ⟨e1, h1⟩ := or_shift b0.toUInt64 b1 8 (by decide) h0
  obtain ⟨e2, h2⟩ := or_shift _ b2 16 (by decide) h1
  obtain ⟨e3, h3⟩ := or_shift _ b3 24 (by decide) h2
  obtain ⟨e4, h4⟩ := or_shift _ b4 32 (by decide) h3
  obtain ⟨e5, h5⟩ := or_shift _ b5 40 (by decide) h4
  obtain ⟨e6, h6⟩ := or_shift _ b6 48 (by decide) h5
  obtain ⟨e7, _⟩ := or_shift _ b7 56 (by decide) h6
  rw [leWord, e7, e6, e5, e4, e3, e2, e1, UInt8.toNat_toUInt64]
  simp only [leVal, UInt64.reduceToNat]
  ring

theorem fromBytesLE_succ (n : Nat) (b0 b1 b2 b3 b4 b5 b6 b7 : UInt8) (bs : List UInt8) :
    fromBytesLE (n + 1) (b0 :: b1 :: b2 :: b3 :: b4 :: b5 :: b6 :: b7 :: bs) =
      leWord b0 b1 b2 b3 b4 b5 b6 b7 :: fromBytesLE n bs := by
  rw [fromBytesLE, List.range_succ_eq_map, List.map_cons, List.map_map]
  congr 1
  rw [fromBytesLE]
  apply List.map_congr_left
  intro i _
  have e : (i + 1) * 8 = i * 8 + 8 := by ring
  simp only [Function.comp, Nat.succ_eq_add_one, e]
  rfl

theorem exists_eight (n : Nat) (bs : List UInt8) (h : bs.length = 8 * (n + 1)) :
    ∃ b0 b1 b2 b3 b4 b5 b6 b7 t, bs = b0 :: b1 :: b2 :: b3 :: b4 :: b5 :: b6 :: b7 :: t ∧ t.length = 8 * n := by
  match bs, h with
  | b0 :: b1 :: b2 :: b3 :: b4 :: b5 :: b6 :: b7 :: t, h =>
    refine ⟨b0, b1, b2, b3, b4, b5, b6, b7, t, rfl, ?_⟩
    simp only [List.length_cons] at h
    omega
  | [], h | [_], h | [_, _], h | [_, _, _], h | [_, _, _, _], h | [_, _, _, _, _], h | [_, _, _, _, _, _], h
  | [_, _, _, _, _, _, _], h => simp at h; try omega

theorem fromBytesLE_val : ∀ (n : Nat) (bs : List UInt8), bs.length = 8 * n →
    wordsVal (fromBytesLE n bs) = leVal bs
  | 0, bs, h => by
    rw [List.length_eq_zero_iff.1 (by omega : bs.length = 0)]; rfl
  | n + 1, bs, h => by
    obtain ⟨b0, b1, b2, b3, b4, b5, b6, b7, t, rfl, ht⟩ := exists_eight n bs h
    rw [fromBytesLE_succ, wordsVal, fromBytesLE_val n t ht, leWord_toNat]
    have := leVal_append [b0, b1, b2, b3, b4, b5, b6, b7] t
    simp only [List.cons_append, List.nil_append] at this
    rw [this]
    simp

theorem fromBytesLE_length (n : Nat) (bs : List UInt8) : (fromBytesLE n bs).length = n := by
  simp [fromBytesLE]

theorem fromBytesBE_eq (n : Nat) (bs : List UInt8) (h : bs.length = 8 * n) :
    fromBytesBE n bs = fromBytesLE n bs.reverse := by
  rw [fromBytesBE, fromBytesLE]
  apply List.map_congr_left
  intro i hi
  rw [List.mem_range] at hi
  have key : ∀ j < 8, bs.getD (n * 8 - i * 8 - (j + 1)) 0 = bs.reverse.getD (i * 8 + j) 0 := by
    intro j hj
    rw [List.getD_eq_getElem?_getD, List.getD_eq_getElem?_getD, List.getElem?_reverse (by omega)]
    congr 2
    omega
  have k0 := key 0 (by norm_num)
  have k1 := key 1 (by norm_num)
  have k2 := key 2 (by norm_num)
  have k3 := key 3 (by norm_num)
  have k4 := key 4 (by norm_num)
  have k5 := key 5 (by norm_num)
  have k6 := key 6 (by norm_num)
  have k7 := key 7 (by norm_num)
  simp only [zero_add, Nat.reduceAdd, add_zero] at k0 k1 k2 k3 k4 k5 k6 k7
  simp only [k0, k1, k2, k3, k4, k5, k6, k7]

theorem fromBytesBE_val (n : Nat) (bs : List UInt8) (h : bs.length = 8 * n) :
    wordsVal (fromBytesBE n bs) = beVal bs := by
  rw [fromBytesBE_eq n bs h, fromBytesLE_val n _ (by simpa using h), beVal_eq]

theorem fromBytesBE_length (n : Nat) (bs : List UInt8) : (fromBytesBE n bs).length = n := by
  simp [fromBytesBE]

/-! Comparison, shift. -/

theorem cmp_spec : ∀ a b : List UInt64, a.length = b.length → cmp a b = compare (wordsVal a) (wordsVal b)
  | [], [], _ => by simp [cmp]
  | a :: as, b :: bs, h => by
    have ih := cmp_spec as bs (Nat.succ.inj h)
    have ha := u64_lt a
    have hb := u64_lt b
    rw [cmp, ih, wordsVal, wordsVal]
    rcases lt_trichotomy (wordsVal as) (wordsVal bs) with hl | he | hg
    · rw [compare_lt_iff_lt.2 hl]
      exact (compare_lt_iff_lt.2 (by omega)).symm
    · rw [compare_eq_iff_eq.2 he, he]
      dsimp only
      by_cases h1 : a < b
      · rw [if_pos h1]
        rw [UInt64.lt_iff_toNat_lt] at h1
        exact (compare_lt_iff_lt.2 (by omega)).symm
      · rw [if_neg h1]
        by_cases h2 : b < a
        · rw [if_pos h2]
          rw [UInt64.lt_iff_toNat_lt] at h2
          exact (compare_gt_iff_gt.2 (by omega)).symm
        · rw [if_neg h2]
          rw [UInt64.lt_iff_toNat_lt] at h1 h2
          exact (compare_eq_iff_eq.2 (by omega)).symm
    · rw [compare_gt_iff_gt.2 hg]
      exact (compare_gt_iff_gt.2 (by omega)).symm
  | [], _ :: _, h => by simp at h
  | _ :: _, [], h => by simp at h

theorem equal_spec : ∀ a b : List UInt64, a.length = b.length → (equal a b = true ↔ a = b)
  | [], [], _ => by simp [equal]
  | a :: as, b :: bs, h => by
    have ih := equal_spec as bs (Nat.succ.inj h)
    rw [equal]
    by_cases hab : a = b
    · simp [hab, ih]
    · simp [hab]
  | [], _ :: _, h => by simp at h
  | _ :: _, [], h => by simp at h

theorem getD_val (s : List UInt64) (i : Nat) : (s.getD i 0).toNat = wordsVal s / 2 ^ (64 * i) % 2 ^ 64 := by
  induction s generalizing i with
  | nil => simp [wordsVal]
  | cons w s ih =>
    have hw := u64_lt w
    cases i with
    | zero =>
      simp only [List.getD_cons_zero, wordsVal, mul_zero, pow_zero, Nat.div_one]
      omega
    | succ i =>
      rw [List.getD_cons_succ, ih, wordsVal]
      have e : 2 ^ (64 * (i + 1)) = 2 ^ 64 * 2 ^ (64 * i) := by rw [← pow_add]; congr 1; ring
      have hd : (w.toNat + 2 ^ 64 * wordsVal s) / 2 ^ 64 = wordsVal s := by omega
      rw [e, ← Nat.div_div_eq_div_mul, hd]

/-- A list is determined by the positional value of each of its words. -/
theorem wordsVal_of_digits : ∀ (s : List UInt64) (v : Nat),
    (∀ i < s.length, (s.getD i 0).toNat = v / 2 ^ (64 * i) % 2 ^ 64) → v < 2 ^ (64 * s.length) → wordsVal s = v
  | [], v, _, h => by simp at h; simp [wordsVal, h]
  | w :: s, v, h, hv => by
    have h0 := h 0 (by simp)
    simp only [List.getD_cons_zero, mul_zero, pow_zero, Nat.div_one] at h0
    have e : ∀ i, 2 ^ (64 * (i + 1)) = 2 ^ 64 * 2 ^ (64 * i) := fun i => by
      rw [← pow_add]; congr 1; ring
    have ih := wordsVal_of_digits s (v / 2 ^ 64) (fun i hi => by
      have := h (i + 1) (by simpa using hi)
      rw [List.getD_cons_succ, e, ← Nat.div_div_eq_div_mul] at this
      exact this) (by
        rw [List.length_cons, e] at hv
        exact Nat.div_lt_of_lt_mul hv)
    rw [wordsVal, ih, h0]
    omega

theorem rshWord_val (s : List UInt64) (bits i : Nat) :
    (rshWord s bits i).toNat = wordsVal s / 2 ^ bits / 2 ^ (64 * i) % 2 ^ 64 := by
  have hg : ∀ k, (if k ≥ s.length then (0 : UInt64) else s.getD k 0) = s.getD k 0 := by
    intro k
    split
    · rename_i h
      rw [List.getD_eq_getElem?_getD, List.getElem?_eq_none h]; rfl
    · rfl
  rw [rshWord]
  simp only [hg]
  set v := wordsVal s with hv
  set A := v / 2 ^ (64 * (i + bits / 64)) with hA
  have h0 : (s.getD (i + bits / 64) 0).toNat = A % 2 ^ 64 := by rw [getD_val]
  have h1 : (s.getD (i + bits / 64 + 1) 0).toNat = A / 2 ^ 64 % 2 ^ 64 := by
    rw [getD_val, ← hv, hA, Nat.div_div_eq_div_mul, ← pow_add]
    congr 3
  have hsplit : v / 2 ^ bits / 2 ^ (64 * i) = A / 2 ^ (bits % 64) := by
    rw [hA, Nat.div_div_eq_div_mul, Nat.div_div_eq_div_mul, ← pow_add, ← pow_add]
    congr 2
    omega
  rw [hsplit]
  clear_value A
  have hb : bits % 64 < 64 := Nat.mod_lt _ (by norm_num)
  by_cases hz : bits % 64 = 0
  · rw [if_neg (not_not.2 hz), hz, h0]; simp
  · rw [if_pos hz]
    have n1 : (UInt64.ofNat (bits % 64)).toNat % 64 = bits % 64 := by
      rw [UInt64.toNat_ofNat']; omega
    have n2 : (UInt64.ofNat (64 - bits % 64)).toNat % 64 = 64 - bits % 64 := by
      rw [UInt64.toNat_ofNat']; omega
    rw [UInt64.toNat_or, UInt64.toNat_shiftRight, UInt64.toNat_shiftLeft, n1, n2, h0, h1]
    generalize bits % 64 = r at *
    rw [Nat.shiftRight_eq_div_pow, Nat.shiftLeft_eq, Nat.or_comm]
    have hr : 2 ^ 64 = 2 ^ r * 2 ^ (64 - r) := by rw [← pow_add]; congr 1; omega
    have hlow : A % 2 ^ 64 / 2 ^ r < 2 ^ (64 - r) := by
      apply Nat.div_lt_of_lt_mul
      rw [← hr]
      exact Nat.mod_lt _ (by positivity)
    have hhi : A / 2 ^ 64 % 2 ^ 64 * 2 ^ (64 - r) % 2 ^ 64 = (A / 2 ^ 64 % 2 ^ r) * 2 ^ (64 - r) := by
      conv_lhs => rw [hr]
      rw [Nat.mul_mod_mul_right]
      rw [Nat.mod_mod_of_dvd _ (Dvd.intro _ rfl), ← hr]
    rw [hhi, ← Nat.shiftLeft_eq, ← Nat.shiftLeft_add_eq_or_of_lt hlow, Nat.shiftLeft_eq]
    have e1 : A % 2 ^ 64 / 2 ^ r = A / 2 ^ r % 2 ^ (64 - r) := by
      rw [hr, Nat.mod_mul_right_div_self]
    have e2 : A / 2 ^ 64 = A / 2 ^ r / 2 ^ (64 - r) := by
      rw [Nat.div_div_eq_div_mul, ← hr]
    rw [e1, e2]
    have hr' : 2 ^ 64 = 2 ^ (64 - r) * 2 ^ r := by rw [hr, mul_comm]
    rw [hr', Nat.mod_mul]
    ring

theorem rsh_length (s : List UInt64) (bits : Nat) : (rsh s bits).length = s.length := by simp [rsh]

theorem rsh_spec (s : List UInt64) (bits : Nat) : wordsVal (rsh s bits) = wordsVal s / 2 ^ bits := by
  apply wordsVal_of_digits
  · intro i hi
    rw [rsh_length] at hi
    rw [← rshWord_val, rsh, List.getD_eq_getElem?_getD, List.getElem?_map, List.getElem?_range hi]
    rfl
  · rw [rsh_length]
    exact lt_of_le_of_lt (Nat.div_le_self _ _) (wordsVal_lt s)

end Scalar

end Bls
