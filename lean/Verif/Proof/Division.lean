import Verif.Proof.DivisionWords

/-! Correctness of the division. `β = 2^64`. -/

namespace Bls.Division

/-! ## Slices -/

theorem wordsVal_take (x : List UInt64) (m : ℕ) (h : m ≤ x.length) : wordsVal (x.take m) = wordsVal x % 2 ^ (64 * m) := by
  conv_rhs => rw [← List.take_append_drop m x, wordsVal_append, List.length_take, min_eq_left h,
    Nat.add_mul_mod_self_left]
  have := wordsVal_lt (x.take m)
  rw [List.length_take, min_eq_left h] at this
  rw [Nat.mod_eq_of_lt this]

theorem wordsVal_drop (x : List UInt64) (m : ℕ) (h : m ≤ x.length) : wordsVal (x.drop m) = wordsVal x / 2 ^ (64 * m) := by
  conv_rhs => rw [← List.take_append_drop m x, wordsVal_append, List.length_take, min_eq_left h]
  have := wordsVal_lt (x.take m)
  rw [List.length_take, min_eq_left h] at this
  rw [Nat.add_mul_div_left _ _ (by positivity), Nat.div_eq_of_lt this, zero_add]

theorem slice_append (x r : List UInt64) {off len : ℕ} (h : off + len ≤ x.length) :
    slice (x ++ r) off len = some ((x.drop off).take len) := by
  rw [slice, if_pos (by rw [List.length_append]; omega), List.drop_append_of_le_length (by omega),
    List.take_append_of_le_length (by rw [List.length_drop]; omega)]

theorem put_append (x r : List UInt64) (off : ℕ) (ws : List UInt64) (h : off + ws.length ≤ x.length) :
    put (x ++ r) off ws = put x off ws ++ r := by
  rw [put, put, List.take_append_of_le_length (by omega), List.drop_append_of_le_length (by omega),
    List.append_assoc, List.append_assoc, List.append_assoc]

theorem put_length (x : List UInt64) (off : ℕ) (ws : List UInt64) (h : off + ws.length ≤ x.length) :
    (put x off ws).length = x.length := by
  rw [put, List.length_append, List.length_append, List.length_take, List.length_drop]; omega

theorem put_val (x : List UInt64) (off : ℕ) (ws : List UInt64) (h : off + ws.length ≤ x.length) :
    wordsVal (put x off ws) + 2 ^ (64 * off) * wordsVal ((x.drop off).take ws.length) =
      wordsVal x + 2 ^ (64 * off) * wordsVal ws := by
  have hx : x = x.take off ++ ((x.drop off).take ws.length ++ x.drop (off + ws.length)) := by
    rw [← List.drop_drop, List.take_append_drop, List.take_append_drop]
  have hl : (x.take off).length = off := by rw [List.length_take]; omega
  have hm : ((x.drop off).take ws.length).length = ws.length := by rw [List.length_take, List.length_drop]; omega
  have e : wordsVal x = wordsVal (x.take off) + 2 ^ (64 * off) * (wordsVal ((x.drop off).take ws.length) +
      2 ^ (64 * ws.length) * wordsVal (x.drop (off + ws.length))) := by
    conv_lhs => rw [hx, wordsVal_append, wordsVal_append, hl, hm]
  rw [put, List.append_assoc, wordsVal_append, wordsVal_append, hl, e]
  ring

theorem get_append (x r : List UInt64) {i : ℕ} (h : i < x.length) :
    ∃ w, (x ++ r)[i]? = some w ∧ w.toNat = wordsVal x / 2 ^ (64 * i) % 2 ^ 64 := by
  refine ⟨x[i], by rw [List.getElem?_append_left h, List.getElem?_eq_getElem h], ?_⟩
  rw [← Scalar.getD_val, List.getD_eq_getElem?_getD, List.getElem?_eq_getElem h]; rfl

theorem store_eq {c : List UInt64} {i : ℕ} (w : UInt64) (h : i < c.length) : store c i w = some (c.set i w) := by
  rw [store, if_pos h]

/-! ## The quotient digit -/

/-- The corrected estimate is at most one too large. -/
theorem estimate_le {U V M q β : ℕ} (hM : 0 < M) (hβ : q < β) (hV : β ≤ V / M) (h : q * (V / M) ≤ U / M) :
    q ≤ U / V + 1 := by
  have h1 : V / M * M ≤ V := Nat.div_mul_le_self V M
  have h2 : V < (V / M + 1) * M := Nat.lt_mul_of_div_lt (Nat.lt_succ_self _) hM
  have h3 : U / M * M ≤ U := Nat.div_mul_le_self U M
  have hVpos : 0 < V := by
    by_contra hv
    have : V = 0 := by omega
    subst this
    simp at hV; omega
  have h4 : q * V ≤ q * ((V / M + 1) * M) := Nat.mul_le_mul_left q h2.le
  have h5 : q * (V / M) * M ≤ U := le_trans (Nat.mul_le_mul_right M h) h3
  have h6 : (q + 1) * M ≤ V := le_trans (Nat.mul_le_mul_right M (by omega : q + 1 ≤ V / M)) h1
  have h7 : q * V < U + V := by
    have e : q * ((V / M + 1) * M) = q * (V / M) * M + q * M := by ring
    have e2 : (q + 1) * M = q * M + M := by ring
    omega
  have h8 : U < (U / V + 1) * V := Nat.lt_mul_of_div_lt (Nat.lt_succ_self _) hVpos
  have h9 : q * V < (U / V + 2) * V := by
    have : (U / V + 2) * V = (U / V + 1) * V + V := by ring
    omega
  have := Nat.lt_of_mul_lt_mul_right h9
  omega

theorem le_estimate {U V M q : ℕ} (hM : 0 < M) (h : q * V ≤ U) : q * (V / M) ≤ U / M := by
  rw [Nat.le_div_iff_mul_le hM]
  calc q * (V / M) * M = q * (V / M * M) := by ring
    _ ≤ q * V := Nat.mul_le_mul_left q (Nat.div_mul_le_self V M)
    _ ≤ U := h

/-- The `do … while` loop finds the largest digit not above the start whose product fits. -/
theorem digitLoop_spec (v t2 : List UInt64) (hv : v.length = 2) (ht : t2.length = 3) :
    ∀ (fuel : ℕ) (q0 : UInt64), q0.toNat < fuel →
    ∃ q : UInt64, digitLoop v t2 fuel (q0 + 1) = some q ∧ q.toNat * wordsVal v ≤ wordsVal t2 ∧
      ∀ r : ℕ, r ≤ q0.toNat → r * wordsVal v ≤ wordsVal t2 → r ≤ q.toNat
  | 0, _, h => absurd h (Nat.not_lt_zero _)
  | fuel + 1, q0, h => by
    have e : q0 + 1 - 1 = q0 := by rw [UInt64.add_sub_cancel]
    obtain ⟨hl, hm⟩ := mul1_spec q0 v 0
    have hval : wordsVal ((mul1 q0 v 0).1 ++ [(mul1 q0 v 0).2]) = wordsVal v * q0.toNat := by
      rw [wordsVal_append, wordsVal, wordsVal, hl, mul_zero, add_zero, hm, UInt64.toNat_zero, add_zero]
    have hcmp : dvCmp ((mul1 q0 v 0).1 ++ [(mul1 q0 v 0).2]) t2 = compare (wordsVal v * q0.toNat) (wordsVal t2) := by
      rw [dvCmp_spec _ _ (by rw [List.length_append, hl, hv, ht]; rfl), hval]
    rw [digitLoop]
    simp only [e, hcmp]
    by_cases hgt : wordsVal t2 < wordsVal v * q0.toNat
    · rw [if_pos (by rw [Nat.compare_eq_gt]; exact hgt)]
      have hpos : 0 < q0.toNat := by
        rcases Nat.eq_zero_or_pos q0.toNat with h0 | h0
        · rw [h0] at hgt; simp at hgt
        · exact h0
      have hq1 : (q0 - 1).toNat = q0.toNat - 1 := by
        rw [UInt64.toNat_sub_of_le _ _ (by rw [UInt64.le_iff_toNat_le]; exact hpos)]; rfl
      obtain ⟨q, h1, h2, h3⟩ := digitLoop_spec v t2 hv ht fuel (q0 - 1) (by omega)
      rw [UInt64.sub_add_cancel] at h1
      refine ⟨q, h1, h2, fun r hr hr' => h3 r ?_ hr'⟩
      rw [hq1]
      rcases Nat.lt_or_ge r q0.toNat with hlt | hge
      · omega
      · have : r = q0.toNat := by omega
        subst this
        rw [mul_comm] at hr'
        omega
    · rw [if_neg (by rw [Nat.compare_eq_gt]; exact hgt)]
      exact ⟨q0, rfl, by rw [mul_comm]; omega, fun r hr _ => hr⟩

theorem pow64_succ (n : ℕ) : 2 ^ (64 * (n + 1)) = 2 ^ (64 * n) * 2 ^ 64 := by rw [← pow_add]; congr 1

theorem estimate_spec {bw rb x ra : List UInt64} {t k : ℕ} (hb : bw.length = t + 1) (hx : k + t + 2 ≤ x.length)
    (hV : 2 ^ (64 * t) ≤ wordsVal bw) (hlt : wordsVal x < wordsVal bw * 2 ^ (64 * (k + 1))) :
    ∃ q : UInt64, estimate (x ++ ra) (bw ++ rb) t (k + t + 1) = some q ∧
      wordsVal x / 2 ^ (64 * k) / wordsVal bw ≤ q.toNat ∧
      q.toNat ≤ wordsVal x / 2 ^ (64 * k) / wordsVal bw + 1 := by
  set X := wordsVal x with hX
  set V := wordsVal bw with hVdef
  have hVlt : V < 2 ^ (64 * t) * 2 ^ 64 := by
    have := wordsVal_lt bw; rw [hb, pow64_succ] at this; exact this
  set U := X / 2 ^ (64 * k) with hU
  have hUV : U < V * 2 ^ 64 := by
    rw [hU, Nat.div_lt_iff_lt_mul (by positivity), mul_assoc, mul_comm (2 ^ 64), ← pow64_succ]; exact hlt
  have hVpos : 0 < V := lt_of_lt_of_le (by positivity) hV
  have hq : U / V < 2 ^ 64 := by rw [Nat.div_lt_iff_lt_mul hVpos, mul_comm]; exact hUV
  obtain ⟨ai, hai, vai⟩ := get_append x ra (i := k + t + 1) (by omega)
  obtain ⟨ai1, hai1, vai1⟩ := get_append x ra (i := k + t + 1 - 1) (by omega)
  obtain ⟨bt, hbt, vbt⟩ := get_append bw rb (i := t) (by omega)
  rw [← hX] at vai vai1
  rw [← hVdef] at vbt
  have hb1 : bt.toNat = V / 2 ^ (64 * t) := by
    rw [vbt, Nat.mod_eq_of_lt]; rw [Nat.div_lt_iff_lt_mul (by positivity), mul_comm]; exact hVlt
  have hbpos : 1 ≤ bt.toNat := by rw [hb1, Nat.le_div_iff_mul_le (by positivity), one_mul]; exact hV
  have hUt : U / 2 ^ (64 * t) = X / 2 ^ (64 * (k + t)) := by
    rw [hU, Nat.div_div_eq_div_mul, ← pow_add]; congr 2; ring
  have hUt1 : U / 2 ^ (64 * t) / 2 ^ 64 = X / 2 ^ (64 * (k + t + 1)) := by
    rw [hUt, Nat.div_div_eq_div_mul, ← pow_add]; congr 2
  have htop : U / 2 ^ (64 * t) / 2 ^ 64 ≤ V / 2 ^ (64 * t) := by
    rw [Nat.div_div_eq_div_mul, Nat.mul_comm, ← Nat.div_div_eq_div_mul]
    exact Nat.div_le_div_right (Nat.le_of_lt (by rw [Nat.div_lt_iff_lt_mul (by positivity)]; exact hUV))
  have hblt := u64_lt bt
  have hai' : ai.toNat = U / 2 ^ (64 * t) / 2 ^ 64 := by
    rw [vai, hUt1, Nat.mod_eq_of_lt]; rw [← hUt1]; omega
  have hai1' : ai1.toNat = U / 2 ^ (64 * t) % 2 ^ 64 := by rw [vai1, hUt, Nat.add_sub_cancel]
  have hcomb : ai.toNat * 2 ^ 64 + ai1.toNat = U / 2 ^ (64 * t) := by
    rw [hai', hai1', mul_comm]; exact Nat.div_add_mod _ _
  -- the first estimate
  obtain ⟨q0, hq0, hq0le⟩ : ∃ q0 : UInt64, (if ai = bt then some 0xFFFFFFFFFFFFFFFF
      else if bt = 0 then none else some (UInt64.ofNat ((ai.toNat * 2 ^ 64 + ai1.toNat) / bt.toNat))) = some q0 ∧
      U / V ≤ q0.toNat := by
    by_cases hab : ai = bt
    · refine ⟨0xFFFFFFFFFFFFFFFF, by rw [if_pos hab], ?_⟩
      rw [show (0xFFFFFFFFFFFFFFFF : UInt64).toNat = 2 ^ 64 - 1 from rfl]; omega
    · have hne : ai.toNat ≠ bt.toNat := fun h => hab (UInt64.toNat_inj.1 h)
      refine ⟨_, by rw [if_neg hab, if_neg (by rintro rfl; simp at hbpos)], ?_⟩
      have hlt' : (ai.toNat * 2 ^ 64 + ai1.toNat) / bt.toNat < 2 ^ 64 := by
        rw [Nat.div_lt_iff_lt_mul (by omega)]
        have := u64_lt ai1
        have : ai.toNat + 1 ≤ bt.toNat := by omega
        have := Nat.mul_le_mul_right (2 ^ 64) this
        rw [mul_comm (2 ^ 64)]
        omega
      rw [UInt64.toNat_ofNat', Nat.mod_eq_of_lt hlt', hcomb, hb1, Nat.le_div_iff_mul_le (by omega)]
      exact le_estimate (by positivity) (Nat.div_mul_le_self U V)
  have hrest : ∀ v0 u0 : UInt64, (if t = 0 then some 0 else (bw ++ rb)[t - 1]?) = some v0 →
      (if k + t + 1 < 2 then some 0 else (x ++ ra)[k + t + 1 - 2]?) = some u0 →
      (∀ r : ℕ, r ≤ U / V → r * wordsVal [v0, bt] ≤ wordsVal [u0, ai1, ai]) →
      (∀ r : ℕ, r < 2 ^ 64 → r * wordsVal [v0, bt] ≤ wordsVal [u0, ai1, ai] → r ≤ U / V + 1) →
      ∃ q : UInt64, estimate (x ++ ra) (bw ++ rb) t (k + t + 1) = some q ∧ U / V ≤ q.toNat ∧ q.toNat ≤ U / V + 1 := by
    intro v0 u0 hv0 hu0 h1 h2
    obtain ⟨q, g1, g2, g3⟩ := digitLoop_spec [v0, bt] [u0, ai1, ai] rfl rfl (2 ^ 64 + 1) q0
      (Nat.lt_succ_of_lt (u64_lt q0))
    refine ⟨q, ?_, g3 _ hq0le (h1 _ le_rfl), h2 _ (u64_lt q) g2⟩
    rw [estimate, hai, hai1, hbt]
    simp only [Option.bind_eq_bind, Option.bind_some]
    rw [hq0, hv0]
    simp only [Option.bind_some]
    rw [hu0]
    simp only [Option.bind_some]
    exact g1
  by_cases ht : t = 0
  · subst ht
    have hv : ∀ w : UInt64, wordsVal [w, bt] = w.toNat + 2 ^ 64 * V := by
      intro w; rw [wordsVal, wordsVal, wordsVal, hb1]; simp
    have hu : ∀ w : UInt64, wordsVal [w, ai1, ai] = w.toNat + 2 ^ 64 * U := by
      intro w; rw [wordsVal, wordsVal, wordsVal, wordsVal]
      have : U / 2 ^ (64 * 0) = U := by simp
      rw [this] at hcomb
      rw [← hcomb]; ring
    obtain ⟨u0, hu0⟩ : ∃ u0, (if k + 0 + 1 < 2 then some 0 else (x ++ ra)[k + 0 + 1 - 2]?) = some u0 := by
      split
      · exact ⟨0, rfl⟩
      · obtain ⟨w, hw, _⟩ := get_append x ra (i := k + 0 + 1 - 2) (by omega)
        exact ⟨w, hw⟩
    refine hrest 0 u0 (by simp) hu0 ?_ ?_
    · intro r hr
      rw [hv, hu, UInt64.toNat_zero, zero_add]
      have : r * V ≤ U := (Nat.le_div_iff_mul_le hVpos).1 hr
      have := Nat.mul_le_mul_left (2 ^ 64) this
      have e : r * (2 ^ 64 * V) = 2 ^ 64 * (r * V) := by ring
      rw [e]; omega
    · intro r _ hr
      rw [hv, hu, UInt64.toNat_zero, zero_add] at hr
      have := u64_lt u0
      have e : r * (2 ^ 64 * V) = 2 ^ 64 * (r * V) := by ring
      rw [e] at hr
      have : r * V ≤ U := by omega
      exact le_trans ((Nat.le_div_iff_mul_le hVpos).2 this) (Nat.le_succ _)
  · obtain ⟨s, rfl⟩ : ∃ s, t = s + 1 := ⟨t - 1, by omega⟩
    obtain ⟨v0, hv0, vv0⟩ := get_append bw rb (i := s + 1 - 1) (by omega)
    obtain ⟨u0, hu0, vu0⟩ := get_append x ra (i := k + (s + 1) + 1 - 2) (by omega)
    rw [Nat.add_sub_cancel, ← hVdef] at vv0
    rw [← hX, show k + (s + 1) + 1 - 2 = k + s by omega] at vu0
    have hv : wordsVal [v0, bt] = V / 2 ^ (64 * s) := by
      rw [wordsVal, wordsVal, wordsVal, vv0, hb1, pow64_succ, ← Nat.div_div_eq_div_mul, mul_zero, add_zero, add_comm]
      exact Nat.div_add_mod _ _
    have hu : wordsVal [u0, ai1, ai] = U / 2 ^ (64 * s) := by
      have e1 : ai1.toNat + 2 ^ 64 * ai.toNat = U / 2 ^ (64 * s) / 2 ^ 64 := by
        rw [Nat.div_div_eq_div_mul, ← pow64_succ, ← hcomb]; ring
      have e2 : u0.toNat = U / 2 ^ (64 * s) % 2 ^ 64 := by
        rw [vu0, hU, Nat.div_div_eq_div_mul, ← pow_add, ← mul_add]
      rw [wordsVal, wordsVal, wordsVal, wordsVal, mul_zero, add_zero, e1, e2, add_comm]
      exact Nat.div_add_mod _ _
    refine hrest v0 u0 (by rw [if_neg (by omega)]; exact hv0) (by rw [if_neg (by omega)]; exact hu0) ?_ ?_
    · intro r hr
      rw [hv, hu]
      exact le_estimate (by positivity) ((Nat.le_div_iff_mul_le hVpos).1 hr)
    · intro r hr hr'
      rw [hv, hu] at hr'
      refine estimate_le (by positivity) hr ?_ hr'
      rw [Nat.le_div_iff_mul_le (by positivity), mul_comm, ← pow64_succ]; exact hV

/-! ## Multiply and subtract -/

theorem take_drop_length {x : List UInt64} {off len : ℕ} (h : off + len ≤ x.length) :
    ((x.drop off).take len).length = len := by rw [List.length_take, List.length_drop]; omega

theorem put_zero (d ws : List UInt64) : put d 0 ws = ws ++ d.drop ws.length := by
  rw [put, List.take_zero, List.nil_append, zero_add]

/-- The product `q * b` in `d`. -/
theorem product_spec {bw d : List UInt64} {t : ℕ} (q : UInt64) (hb : bw.length = t + 1) (hd : t + 2 ≤ d.length) :
    ∃ d' P, (if (mul1 q bw 0).2 ≠ 0 then store (put d 0 (mul1 q bw 0).1) (t + 1) (mul1 q bw 0).2
        else some (put d 0 (mul1 q bw 0).1)) = some d' ∧ d'.length = d.length ∧
      P.length = (if (mul1 q bw 0).2 ≠ 0 then t + 2 else t + 1) ∧ slice d' 0 P.length = some P ∧
      wordsVal P = wordsVal bw * q.toNat := by
  obtain ⟨hl, hm⟩ := mul1_spec q bw 0
  rw [UInt64.toNat_zero, add_zero, hb] at hm
  rw [hb] at hl
  set dw := (mul1 q bw 0).1
  set c := (mul1 q bw 0).2
  have hpl : (put d 0 dw).length = d.length := put_length d 0 dw (by omega)
  by_cases hc : c ≠ 0
  · rw [if_pos hc, if_pos hc]
    refine ⟨(put d 0 dw).set (t + 1) c, dw ++ [c], store_eq c (by omega), by rw [List.length_set, hpl],
      by rw [List.length_append, hl]; rfl, ?_, ?_⟩
    · have : (put d 0 dw).set (t + 1) c = (dw ++ [c]) ++ d.drop (t + 2) := by
        rw [put_zero, hl, List.set_append_right _ _ (by omega), hl, Nat.sub_self,
          List.drop_eq_getElem_cons (by omega : t + 1 < d.length), List.set_cons_zero, List.append_assoc]
        rfl
      rw [this, slice_append _ _ (by omega), List.drop_zero, List.take_length]
    · rw [wordsVal_append, wordsVal, wordsVal, hl, mul_zero, add_zero, hm]
  · rw [if_neg hc, if_neg hc]
    have hc0 : c = 0 := not_not.1 hc
    refine ⟨_, dw, rfl, hpl, hl, ?_, ?_⟩
    · rw [put_zero, slice_append _ _ (by omega), List.drop_zero, List.take_length]
    · rw [hc0, UInt64.toNat_zero, mul_zero, add_zero] at hm; exact hm

theorem subMul_spec {bw x ra d : List UInt64} {t k : ℕ} (q : UInt64) (hb : bw.length = t + 1)
    (hx : k + t + 2 ≤ x.length) (hd : t + 2 ≤ d.length) :
    ∃ d' x' carry, subMul bw x.length t k q d (x ++ ra) = some (d', x' ++ ra, carry) ∧ d'.length = d.length ∧
      x'.length = x.length ∧ carry.toNat ≤ 1 ∧
      wordsVal x' + wordsVal bw * q.toNat * 2 ^ (64 * k) = wordsVal x + 2 ^ (64 * x.length) * carry.toNat := by
  obtain ⟨d', P, h1, h2, h3, h4, h5⟩ := product_spec (bw := bw) (d := d) q hb hd
  have hsd : P.length ≤ t + 2 := by rw [h3]; split <;> omega
  have hks : k + P.length ≤ x.length := by omega
  have hal := take_drop_length hks
  obtain ⟨s1, s2, s3⟩ := subn_spec ((x.drop k).take P.length) P 0 hal (by decide)
  rw [hal, UInt64.toNat_zero, add_zero] at s3
  rw [hal] at s1
  set r := (subn ((x.drop k).take P.length) P 0).1
  set c := (subn ((x.drop k).take P.length) P 0).2
  have p1 := put_val x k r (by omega)
  rw [s1] at p1
  have pl := put_length x k r (by omega)
  have hbase : wordsVal (put x k r) + wordsVal bw * q.toNat * 2 ^ (64 * k) =
      wordsVal x + 2 ^ (64 * (P.length + k)) * c.toNat := by
    rw [← h5, mul_add, pow_add]
    linear_combination p1 + 2 ^ (64 * k) * s3
  have hrun : subMul bw x.length t k q d (x ++ ra) =
      if x.length > P.length + k then
        (slice (put x k r ++ ra) (P.length + k) (x.length - (P.length + k))).bind fun h =>
          some (d', put (put x k r ++ ra) (P.length + k) (sub1 h c).1, (sub1 h c).2)
      else some (d', put x k r ++ ra, c) := by
    rw [subMul]
    simp only [Option.bind_eq_bind]
    rw [if_pos (by omega), Option.bind_some, h1, Option.bind_some, ← h3, slice_append x ra hks, Option.bind_some, h4,
      Option.bind_some, put_append x ra k _ (by rw [s1]; omega)]
  by_cases hgt : x.length > P.length + k
  · rw [if_pos hgt, slice_append _ _ (by rw [pl]; omega), Option.bind_some] at hrun
    set h := ((put x k r).drop (P.length + k)).take (x.length - (P.length + k)) with hh
    have hhl : h.length = x.length - (P.length + k) := take_drop_length (by rw [pl]; omega)
    obtain ⟨b1, b2, b3⟩ := sub1_spec h c s2
    rw [hhl] at b3 b1
    have p2 := put_val (put x k r) (P.length + k) (sub1 h c).1 (by rw [b1, pl]; omega)
    rw [b1, ← hh] at p2
    refine ⟨d', put (put x k r) (P.length + k) (sub1 h c).1, (sub1 h c).2, ?_, h2, ?_, b2, ?_⟩
    · rw [hrun, put_append _ ra _ _ (by rw [b1, pl]; omega)]
    · rw [put_length _ _ _ (by rw [b1, pl]; omega), pl]
    · have e : 2 ^ (64 * x.length) = 2 ^ (64 * (P.length + k)) * 2 ^ (64 * (x.length - (P.length + k))) := by
        rw [← pow_add]; congr 1; omega
      rw [e]
      linear_combination hbase + p2 + 2 ^ (64 * (P.length + k)) * b3
  · rw [if_neg hgt] at hrun
    refine ⟨d', put x k r, c, hrun, h2, pl, s2, ?_⟩
    rw [show x.length = P.length + k by omega]; exact hbase

theorem addBack_spec {bw x ra : List UInt64} {t k : ℕ} (hb : bw.length = t + 1) (hx : k + t + 2 ≤ x.length) :
    ∃ x', addBack bw x.length t k (x ++ ra) = some (x' ++ ra) ∧ x'.length = x.length ∧
      ∃ c, wordsVal x' + 2 ^ (64 * x.length) * c = wordsVal x + wordsVal bw * 2 ^ (64 * k) := by
  have hks : k + (t + 1) ≤ x.length := by omega
  have hal := take_drop_length hks
  obtain ⟨s1, s2, s3⟩ := addn_spec ((x.drop k).take (t + 1)) bw 0 (by rw [hal, hb]) (by decide)
  rw [hal, UInt64.toNat_zero, add_zero] at s3
  rw [hal] at s1
  set r := (addn ((x.drop k).take (t + 1)) bw 0).1
  set c := (addn ((x.drop k).take (t + 1)) bw 0).2
  have p1 := put_val x k r (by omega)
  rw [s1] at p1
  have pl := put_length x k r (by omega)
  set h := ((put x k r).drop (t + 1 + k)).take (x.length - (t + 1 + k)) with hh
  have hhl : h.length = x.length - (t + 1 + k) := take_drop_length (by rw [pl]; omega)
  obtain ⟨b1, b3⟩ := add1_spec h c s2
  rw [hhl] at b1 b3
  have p2 := put_val (put x k r) (t + 1 + k) (add1 h c).1 (by rw [b1, pl]; omega)
  rw [b1, ← hh] at p2
  refine ⟨put (put x k r) (t + 1 + k) (add1 h c).1, ?_, ?_, (add1 h c).2.toNat, ?_⟩
  · rw [addBack]
    simp only [Option.bind_eq_bind]
    rw [slice_append x ra hks, Option.bind_some, put_append x ra k _ (by rw [s1]; omega),
      slice_append _ ra (by rw [pl]; omega), Option.bind_some, put_append _ ra _ _ (by rw [b1, pl]; omega)]
  · rw [put_length _ _ _ (by rw [b1, pl]; omega), pl]
  · have e : 2 ^ (64 * x.length) = 2 ^ (64 * (t + 1 + k)) * 2 ^ (64 * (x.length - (t + 1 + k))) := by
      rw [← pow_add]; congr 1; omega
    rw [e]
    have e2 : 2 ^ (64 * (t + 1 + k)) = 2 ^ (64 * k) * 2 ^ (64 * (t + 1)) := by rw [← pow_add]; congr 1; ring
    linear_combination p1 + p2 + 2 ^ (64 * (t + 1 + k)) * b3 + 2 ^ (64 * k) * s3 + c.toNat * e2

theorem round_spec {bw rb x ra c d : List UInt64} {t k : ℕ} (hb : bw.length = t + 1) (hx : k + t + 2 ≤ x.length)
    (hd : t + 2 ≤ d.length) (hc : k < c.length) (hV : 2 ^ (64 * t) ≤ wordsVal bw)
    (hlt : wordsVal x < wordsVal bw * 2 ^ (64 * (k + 1))) :
    ∃ q d' x', round (bw ++ rb) x.length t k (c, d, x ++ ra) = some (c.set k q, d', x' ++ ra) ∧
      d'.length = d.length ∧ x'.length = x.length ∧
      wordsVal x = wordsVal x' + q.toNat * wordsVal bw * 2 ^ (64 * k) ∧
      wordsVal x' < wordsVal bw * 2 ^ (64 * k) := by
  obtain ⟨q, hq, hq1, hq2⟩ := estimate_spec (rb := rb) (ra := ra) hb hx hV hlt
  obtain ⟨d', x', cy, hs, hdl, hxl, hcy, hval⟩ := subMul_spec (ra := ra) q hb hx hd
  have hbs : slice (bw ++ rb) 0 (t + 1) = some bw := by
    rw [slice_append _ _ (by omega), List.drop_zero, ← hb, List.take_length]
  have hVpos : 0 < wordsVal bw := lt_of_lt_of_le (by positivity) hV
  set X := wordsVal x
  set V := wordsVal bw
  set B := 2 ^ (64 * k) with hB
  have hBpos : 0 < B := by positivity
  set Q := X / B / V with hQ
  have hQ' : Q = X / (V * B) := by rw [hQ, Nat.div_div_eq_div_mul, mul_comm]
  have hVB : 0 < V * B := Nat.mul_pos hVpos hBpos
  have hdm := Nat.div_add_mod X (V * B)
  have hml := Nat.mod_lt X hVB
  rw [← hQ'] at hdm
  clear_value Q
  clear hQ hQ'
  have hxlt := wordsVal_lt x
  have hx'lt := wordsVal_lt x'
  rw [hxl] at hx'lt
  have hrun : round (bw ++ rb) x.length t k (c, d, x ++ ra) =
      if cy ≠ 0 then (addBack bw x.length t k (x' ++ ra)).bind fun a => (store c k (q - 1)).bind fun c => some (c, d', a)
      else (store c k q).bind fun c => some (c, d', x' ++ ra) := by
    rw [round]
    simp only [Option.bind_eq_bind]
    rw [hq, Option.bind_some, hbs, Option.bind_some, hs, Option.bind_some]
  by_cases hc0 : cy ≠ 0
  · have hcy1 : cy.toNat = 1 := by
      have : cy.toNat ≠ 0 := fun e => hc0 (UInt64.toNat_inj.1 e)
      omega
    rw [hcy1, mul_one] at hval
    have hqQ : q.toNat = Q + 1 := by
      rcases Nat.lt_or_ge Q q.toNat with h | h
      · omega
      · exfalso
        have : q.toNat = Q := by omega
        have e : V * q.toNat * B = V * B * Q := by rw [this]; ring
        omega
    obtain ⟨x'', ha, hxl2, cc, hval2⟩ := addBack_spec (ra := ra) (x := x') (k := k) hb (by omega)
    rw [hxl] at ha hval2
    change _ = wordsVal x' + V * B at hval2
    have hx''lt := wordsVal_lt x''
    rw [hxl2, hxl] at hx''lt
    have hq' : (q - 1).toNat = Q := by
      rw [UInt64.toNat_sub_of_le _ _ (by rw [UInt64.le_iff_toNat_le, UInt64.toNat_one]; omega), UInt64.toNat_one]; omega
    rw [if_pos hc0, ha, Option.bind_some, store_eq _ hc, Option.bind_some] at hrun
    have hfin : wordsVal x'' = X % (V * B) := by
      have e : V * q.toNat * B = V * B * Q + V * B := by rw [hqQ]; ring
      have hcc : cc = 1 := by
        have h1 : wordsVal x'' + 2 ^ (64 * x.length) * cc = 2 ^ (64 * x.length) + X % (V * B) := by omega
        have hmlt : X % (V * B) < 2 ^ (64 * x.length) := lt_of_le_of_lt (Nat.mod_le _ _) hxlt
        generalize 2 ^ (64 * x.length) = T at *
        rcases Nat.lt_or_ge cc 1 with h | h
        · have : cc = 0 := by omega
          subst this; omega
        · rcases Nat.lt_or_ge cc 2 with h' | h'
          · omega
          · have := Nat.mul_le_mul_left T h'
            omega
      rw [hcc, mul_one] at hval2
      omega
    refine ⟨q - 1, d', x'', hrun, hdl, by omega, ?_, by rw [hfin]; exact hml⟩
    rw [hfin, hq']
    linear_combination -hdm
  · have hcy0 : cy = 0 := not_not.1 hc0
    rw [hcy0, UInt64.toNat_zero, mul_zero, add_zero] at hval
    rw [if_neg hc0, store_eq _ hc, Option.bind_some] at hrun
    have hqQ : q.toNat = Q := by
      rcases Nat.lt_or_ge Q q.toNat with h | h
      · exfalso
        have : q.toNat = Q + 1 := by omega
        have e : V * q.toNat * B = V * B * Q + V * B := by rw [this]; ring
        omega
      · omega
    have hfin : wordsVal x' = X % (V * B) := by
      have e : V * q.toNat * B = V * B * Q := by rw [hqQ]; ring
      omega
    refine ⟨q, d', x', hrun, hdl, hxl, ?_, by rw [hfin]; exact hml⟩
    linear_combination -hval

theorem mainLoop_spec {bw rb ra : List UInt64} {t : ℕ} (hb : bw.length = t + 1) (hV : 2 ^ (64 * t) ≤ wordsVal bw) :
    ∀ (m : ℕ) (x c d : List UInt64), m + t + 1 ≤ x.length → t + 2 ≤ d.length → m ≤ c.length →
    wordsVal x < wordsVal bw * 2 ^ (64 * m) →
    ∃ cl d' x', mainLoop (bw ++ rb) x.length t m (c, d, x ++ ra) = some (cl ++ c.drop m, d', x' ++ ra) ∧ cl.length = m ∧
      d'.length = d.length ∧ x'.length = x.length ∧ wordsVal x = wordsVal x' + wordsVal cl * wordsVal bw ∧
      wordsVal x' < wordsVal bw
  | 0, x, c, d, _, _, _, hlt => ⟨[], d, x, rfl, rfl, rfl, rfl, by simp [wordsVal], by simpa using hlt⟩
  | k + 1, x, c, d, hx, hd, hc, hlt => by
    obtain ⟨q, d1, x1, h1, h2, h3, h4, h5⟩ := round_spec (rb := rb) (ra := ra) (k := k) hb (by omega) hd
      (by omega : k < c.length) hV hlt
    obtain ⟨cl, d2, x2, g1, g2, g3, g4, g5, g6⟩ := mainLoop_spec hb hV k x1 (c.set k q) d1 (by omega) (by omega)
      (by rw [List.length_set]; omega) h5
    refine ⟨cl ++ [q], d2, x2, ?_, by simp [g2], by omega, by omega, ?_, g6⟩
    · rw [mainLoop, h1]
      dsimp only
      rw [← h3, g1]
      have : (c.set k q).drop k = q :: c.drop (k + 1) := by
        rw [List.drop_eq_getElem_cons (by rw [List.length_set]; omega), List.getElem_set_self,
          List.drop_set_of_lt (by omega)]
      rw [this, List.append_assoc]; rfl
    · rw [h4, g5, wordsVal_append, wordsVal, wordsVal, g2]; ring

/-! ## The leading digit -/

theorem topLoop_spec (y : List UInt64) (hy : 0 < wordsVal y) : ∀ (fuel : ℕ) (cn : UInt64) (x : List UInt64),
    x.length = y.length → wordsVal x / wordsVal y < fuel → cn.toNat + wordsVal x / wordsVal y < 2 ^ 64 →
    ∃ cn' x', topLoop fuel cn x y = some (cn', x') ∧ x'.length = x.length ∧
      cn'.toNat = cn.toNat + wordsVal x / wordsVal y ∧ wordsVal x' = wordsVal x % wordsVal y
  | 0, _, _, _, h, _ => absurd h (Nat.not_lt_zero _)
  | fuel + 1, cn, x, hl, hf, hcn => by
    rw [topLoop, dvCmp_spec x y hl]
    by_cases hlt : wordsVal x < wordsVal y
    · rw [if_neg (by rw [not_not, Nat.compare_eq_lt]; exact hlt)]
      exact ⟨cn, x, rfl, rfl, by rw [Nat.div_eq_of_lt hlt, add_zero], by rw [Nat.mod_eq_of_lt hlt]⟩
    · rw [if_pos (by rw [ne_eq, Nat.compare_eq_lt]; exact hlt)]
      obtain ⟨s1, s2, s3⟩ := subn_spec x y 0 hl (by decide)
      rw [UInt64.toNat_zero, add_zero] at s3
      have hr := wordsVal_lt (subn x y 0).1
      rw [s1] at hr
      have hylt := wordsVal_lt y
      rw [← hl] at hylt
      have hc0 : (subn x y 0).2.toNat = 0 := by
        by_contra hne
        have : (subn x y 0).2.toNat = 1 := by omega
        rw [this] at s3
        omega
      rw [hc0, mul_zero, add_zero] at s3
      have hval : wordsVal (subn x y 0).1 = wordsVal x - wordsVal y := by omega
      have hdiv : wordsVal x / wordsVal y = (wordsVal x - wordsVal y) / wordsVal y + 1 := by
        rw [Nat.div_eq_sub_div hy (by omega)]
      have hmod : wordsVal x % wordsVal y = (wordsVal x - wordsVal y) % wordsVal y := by
        rw [Nat.mod_eq_sub_mod (by omega)]
      have hdpos : 1 ≤ wordsVal x / wordsVal y := Nat.div_pos (by omega) hy
      have hcn1 : (cn + 1).toNat = cn.toNat + 1 := by
        rw [UInt64.toNat_add, UInt64.toNat_one, Nat.mod_eq_of_lt (by omega)]
      obtain ⟨cn', x', g1, g2, g3, g4⟩ := topLoop_spec y hy fuel (cn + 1) (subn x y 0).1 (by omega)
        (by rw [hval]; omega) (by rw [hcn1, hval]; omega)
      refine ⟨cn', x', g1, by omega, by rw [g3, hcn1, hval, hdiv]; omega, by rw [g4, hval, hmod]⟩

/-! ## Normalisation -/

/-- After normalisation: `sa`-word dividend and `sb`-word divisor, both multiplied by `2^norm`, top divisor word at
least `2^62`. -/
theorem normalize_spec {aw bw : List UInt64} {n : ℕ} {ra rb : List UInt64} (ha : aw.length = n) (hra : ra ≠ [])
    (hb0 : bw ≠ []) (htop1 : 2 ^ (64 * (bw.length - 1)) ≤ wordsVal bw)
    (htop2 : wordsVal bw < 2 ^ (64 * (bw.length - 1)) * 2 ^ 63) :
    ∃ x ra' y norm, normalize (aw ++ ra) n (bw ++ rb) bw.length = some (x ++ ra', x.length, y ++ rb, y.length, norm) ∧
      y.length = bw.length ∧ n ≤ x.length ∧ x.length ≤ n + 1 ∧ x.length + ra'.length = n + ra.length ∧ norm < 64 ∧
      wordsVal x = 2 ^ norm * wordsVal aw ∧ wordsVal y = 2 ^ norm * wordsVal bw ∧
      2 ^ (64 * (bw.length - 1)) * 2 ^ 62 ≤ wordsVal y := by
  obtain ⟨t, ht⟩ : ∃ t, bw.length = t + 1 := ⟨bw.length - 1, by
    have := List.length_pos_of_ne_nil hb0; omega⟩
  rw [ht, Nat.add_sub_cancel] at htop1 htop2 ⊢
  obtain ⟨bt, hbt, vbt⟩ := get_append bw rb (i := t) (by omega)
  have hb1 : bt.toNat = wordsVal bw / 2 ^ (64 * t) := by
    rw [vbt, Nat.mod_eq_of_lt]
    rw [Nat.div_lt_iff_lt_mul (by positivity), mul_comm]
    have := wordsVal_lt bw; rw [ht, pow64_succ] at this; exact this
  have hbpos : 1 ≤ bt.toNat := by rw [hb1, Nat.le_div_iff_mul_le (by positivity), one_mul]; exact htop1
  have hblt : bt.toNat < 2 ^ 63 := by rw [hb1, Nat.div_lt_iff_lt_mul (by positivity), mul_comm]; exact htop2
  have hsz1 : 1 ≤ bt.toNat.size := Nat.size_pos.2 hbpos
  have hsz2 : bt.toNat.size ≤ 63 := Nat.size_le.2 hblt
  have hnorm : (64 - Scalar.countlZero bt) % 64 = bt.toNat.size := by
    rw [Scalar.countlZero_spec, Nat.mod_eq_of_lt (by omega)]; omega
  have hpow : 2 ^ (bt.toNat.size - 1) ≤ bt.toNat := Nat.lt_size.1 (by omega)
  have hbtV : bt.toNat * 2 ^ (64 * t) ≤ wordsVal bw := by rw [hb1]; exact Nat.div_mul_le_self _ _
  by_cases h63 : bt.toNat.size < 63
  · have hn0 : 0 < 63 - bt.toNat.size := by omega
    set norm := 63 - bt.toNat.size with hnormdef
    obtain ⟨l1, l2, l3⟩ := lshb_spec hn0 (by omega : norm < 64) aw 0 (by rw [UInt64.toNat_zero]; positivity)
    obtain ⟨m1, m2, m3⟩ := lshb_spec hn0 (by omega : norm < 64) bw 0 (by rw [UInt64.toNat_zero]; positivity)
    rw [UInt64.toNat_zero, add_zero] at l3 m3
    rw [ha] at l1 l3
    rw [ht] at m1 m3
    have hVlt : wordsVal bw < 2 ^ (64 * t) * 2 ^ bt.toNat.size := by
      have h1 : wordsVal bw / 2 ^ (64 * t) < 2 ^ bt.toNat.size := by rw [← hb1]; exact Nat.lt_size_self _
      rw [Nat.div_lt_iff_lt_mul (by positivity)] at h1
      rw [mul_comm]; exact h1
    have hb2 : 2 ^ norm * wordsVal bw < 2 ^ (64 * (t + 1)) := by
      calc 2 ^ norm * wordsVal bw < 2 ^ norm * (2 ^ (64 * t) * 2 ^ bt.toNat.size) :=
            Nat.mul_lt_mul_of_pos_left hVlt (by positivity)
        _ = 2 ^ (64 * t + 63) := by rw [← pow_add, ← pow_add]; congr 1; omega
        _ ≤ 2 ^ (64 * (t + 1)) := Nat.pow_le_pow_right (by norm_num) (by omega)
    have hbc : (lshb norm bw 0).2.toNat = 0 := by
      by_contra hne
      have : 1 ≤ (lshb norm bw 0).2.toNat := by omega
      have := Nat.mul_le_mul_left (2 ^ (64 * (t + 1))) this
      omega
    have hbc' : (lshb norm bw 0).2 = 0 := UInt64.toNat_inj.1 hbc
    rw [hbc, mul_zero, add_zero] at m3
    have hyge : 2 ^ (64 * t) * 2 ^ 62 ≤ wordsVal (lshb norm bw 0).1 := by
      rw [m3]
      calc 2 ^ (64 * t) * 2 ^ 62 = 2 ^ norm * (2 ^ (bt.toNat.size - 1) * 2 ^ (64 * t)) := by
            rw [← pow_add, ← pow_add, ← pow_add]; congr 1; omega
        _ ≤ 2 ^ norm * wordsVal bw :=
            Nat.mul_le_mul_left _ (le_trans (Nat.mul_le_mul_right _ hpow) hbtV)
    have hsa : slice (aw ++ ra) 0 n = some aw := by
      rw [slice_append _ _ (by omega), List.drop_zero, ← ha, List.take_length]
    have hsb : slice (bw ++ rb) 0 (t + 1) = some bw := by
      rw [slice_append _ _ (by omega), List.drop_zero, ← ht, List.take_length]
    have hpa : put (aw ++ ra) 0 (lshb norm aw 0).1 = (lshb norm aw 0).1 ++ ra := by
      rw [put_zero, l1, ← ha, List.drop_left']; rfl
    have hpb : put (bw ++ rb) 0 (lshb norm bw 0).1 = (lshb norm bw 0).1 ++ rb := by
      rw [put_zero, m1, ← ht, List.drop_left']; rfl
    have hrun : normalize (aw ++ ra) n (bw ++ rb) (t + 1) =
        (if (lshb norm aw 0).2 ≠ 0 then store ((lshb norm aw 0).1 ++ ra) n (lshb norm aw 0).2
          else some ((lshb norm aw 0).1 ++ ra)).bind fun a =>
        some (a, if (lshb norm aw 0).2 ≠ 0 then n + 1 else n, (lshb norm bw 0).1 ++ rb, t + 1, norm) := by
      rw [normalize]
      simp only [Option.bind_eq_bind]
      rw [if_neg (by omega), Nat.add_sub_cancel, hbt, Option.bind_some, hnorm, if_pos h63, ← hnormdef, lshbShifts,
        if_pos ⟨hn0, by omega⟩, Option.bind_some, hsa, Option.bind_some, hpa]
      congr 1
      funext a
      rw [hsb, Option.bind_some, hpb]
      simp only [hbc', ne_eq, not_true_eq_false, if_false, Option.bind_some]
    by_cases hac : (lshb norm aw 0).2 ≠ 0
    · obtain ⟨r0, rs, rfl⟩ := List.exists_cons_of_ne_nil hra
      rw [if_pos hac, if_pos hac, store_eq _ (by rw [List.length_append, l1, List.length_cons]; omega),
        Option.bind_some] at hrun
      have hset : ((lshb norm aw 0).1 ++ r0 :: rs).set n (lshb norm aw 0).2 =
          ((lshb norm aw 0).1 ++ [(lshb norm aw 0).2]) ++ rs := by
        rw [List.set_append_right _ _ (by omega), l1, Nat.sub_self, List.set_cons_zero, List.append_assoc]; rfl
      rw [hset] at hrun
      refine ⟨(lshb norm aw 0).1 ++ [(lshb norm aw 0).2], rs, (lshb norm bw 0).1, norm, ?_, m1, ?_, ?_, ?_, by omega,
        ?_, m3, hyge⟩
      · rw [hrun, m1]; simp only [List.length_append, l1]; rfl
      · simp [l1]
      · simp [l1]
      · simp only [List.length_append, l1, List.length_cons, List.length_nil]; omega
      · rw [wordsVal_append, wordsVal, wordsVal, l1, mul_zero, add_zero, l3]
    · have hac0 : (lshb norm aw 0).2 = 0 := not_not.1 hac
      rw [if_neg hac, if_neg hac, Option.bind_some] at hrun
      refine ⟨(lshb norm aw 0).1, ra, (lshb norm bw 0).1, norm, ?_, m1, by omega, by omega, by omega, by omega,
        ?_, m3, hyge⟩
      · rw [hrun, m1, l1]
      · rw [hac0, UInt64.toNat_zero, mul_zero, add_zero] at l3; exact l3
  · refine ⟨aw, ra, bw, 0, ?_, ht, by omega, by omega, by omega, by norm_num, by simp, by simp, ?_⟩
    · rw [normalize]
      simp only [Option.bind_eq_bind]
      rw [if_neg (by omega), Nat.add_sub_cancel, hbt, Option.bind_some, hnorm, if_neg h63, ha, ht]
    · have : bt.toNat.size = 63 := by omega
      rw [this] at hpow
      calc 2 ^ (64 * t) * 2 ^ 62 = 2 ^ 62 * 2 ^ (64 * t) := mul_comm _ _
        _ ≤ bt.toNat * 2 ^ (64 * t) := Nat.mul_le_mul_right _ hpow
        _ ≤ wordsVal bw := hbtV

/-! ## Division -/

/-- Division after a normalisation that multiplied both numbers by `2^norm`. -/
theorem divnSafe_core (a b : List UInt64) (hab : b.length ≤ a.length) (hbpos : 0 < wordsVal b) {n : ℕ} (hn : a.length = n)
    {x ra y : List UInt64} {norm t : ℕ}
    (h1 : normalize (a ++ [0, 0]) n (b ++ List.replicate (n + 2 - b.length) 0) b.length =
      some (x ++ ra, x.length, y ++ List.replicate (n + 2 - y.length) 0, y.length, norm)) (hyt : y.length = t + 1)
    (h2 : b.length ≤ y.length) (hyx : y.length ≤ x.length) (h4 : x.length ≤ n + 1) (h5 : x.length + ra.length = n + 2)
    (h6 : norm < 64) (h7 : wordsVal x = 2 ^ norm * wordsVal a) (h8 : wordsVal y = 2 ^ norm * wordsVal b)
    (h9 : 2 ^ (64 * t) * 2 ^ 62 ≤ wordsVal y) :
    ∃ q r, divnSafe a b = some (q, r) ∧ q.length = a.length ∧ r.length = b.length ∧
      wordsVal q = wordsVal a / wordsVal b ∧ wordsVal r = wordsVal a % wordsVal b := by
  obtain ⟨m, hm⟩ : ∃ m, m = x.length - y.length := ⟨_, rfl⟩
  have hmx : m + t + 1 = x.length := by omega
  -- the shifted divisor
  have hrb : List.replicate (n + 2 - y.length) (0 : UInt64) =
      List.replicate m 0 ++ List.replicate (n + 2 - y.length - m) 0 := by
    rw [List.replicate_append_replicate]; congr 1; omega
  set rb' : List UInt64 := List.replicate (n + 2 - y.length - m) 0 with hrb'
  have hs1 : slice (y ++ List.replicate (n + 2 - y.length) 0) 0 (y.length + m) = some (y ++ List.replicate m 0) := by
    rw [hrb, ← List.append_assoc, slice_append _ _ (by simp), List.drop_zero]
    rw [List.take_of_length_le (by simp)]
  have hl1 : lshd (y ++ List.replicate m 0) m = List.replicate m 0 ++ y := by
    rw [lshd, List.length_append, List.length_replicate, Nat.add_sub_cancel, List.take_left']; rfl
  have hp1 : put (y ++ List.replicate (n + 2 - y.length) 0) 0 (List.replicate m 0 ++ y) =
      (List.replicate m 0 ++ y) ++ rb' := by
    rw [put_zero, hrb, ← List.append_assoc, List.drop_left' (by simp; omega)]
  have hs2 : slice (x ++ ra) 0 x.length = some x := by
    rw [slice_append _ _ (by omega), List.drop_zero, List.take_length]
  have hs3 : slice ((List.replicate m 0 ++ y) ++ rb') 0 x.length = some (List.replicate m 0 ++ y) := by
    rw [slice_append _ _ (by simp; omega), List.drop_zero, List.take_of_length_le (by simp; omega)]
  have hs4 : slice ((List.replicate m 0 ++ y) ++ rb') 0 (y.length + m) = some (List.replicate m 0 ++ y) := by
    rw [slice_append _ _ (by simp; omega), List.drop_zero, List.take_of_length_le (by simp; omega)]
  have hr1 : rshd (List.replicate m 0 ++ y) m = y ++ List.replicate m 0 := by
    rw [rshd, List.drop_left' (by simp)]
  have hp2 : put ((List.replicate m 0 ++ y) ++ rb') 0 (y ++ List.replicate m 0) = y ++ (List.replicate m 0 ++ rb') := by
    rw [put_zero, List.drop_left' (by simp; omega), List.append_assoc]
  -- top digit
  have hyv : wordsVal (List.replicate m 0 ++ y) = 2 ^ (64 * m) * wordsVal y := by
    rw [wordsVal_append, wordsVal_replicate, List.length_replicate, zero_add]
  have hypos : 0 < wordsVal y := lt_of_lt_of_le (by positivity) h9
  have hxlt : wordsVal x < 2 ^ (64 * x.length) := wordsVal_lt x
  have hdiv4 : wordsVal x / (2 ^ (64 * m) * wordsVal y) < 4 := by
    rw [Nat.div_lt_iff_lt_mul (by positivity)]
    calc wordsVal x < 2 ^ (64 * x.length) := hxlt
      _ = 4 * (2 ^ (64 * m) * (2 ^ (64 * t) * 2 ^ 62)) := by
          rw [show (4 : ℕ) = 2 ^ 2 by norm_num, ← pow_add, ← pow_add, ← pow_add]; congr 1; omega
      _ ≤ 4 * (2 ^ (64 * m) * wordsVal y) := Nat.mul_le_mul_left _ (Nat.mul_le_mul_left _ h9)
  obtain ⟨cn, x1, g1, g2, g3, g4⟩ := topLoop_spec (List.replicate m 0 ++ y) (by rw [hyv]; positivity) (2 ^ 64) 0 x
    (by simp; omega) (by rw [hyv]; omega) (by rw [hyv, UInt64.toNat_zero]; omega)
  rw [hyv] at g3 g4
  rw [UInt64.toNat_zero, zero_add] at g3
  have hc0 : (List.replicate (n + 2) (0 : UInt64))[m]? = some 0 := by
    rw [List.getElem?_replicate, if_pos (by omega)]
  have hst : store (List.replicate (n + 2) 0) m cn = some ((List.replicate (n + 2) 0).set m cn) :=
    store_eq cn (by simp; omega)
  have hp3 : put (x ++ ra) 0 x1 = x1 ++ ra := by rw [put_zero, List.drop_left' (by omega)]
  -- main loop
  have hx1lt : wordsVal x1 < wordsVal y * 2 ^ (64 * m) := by
    rw [g4, mul_comm]; exact Nat.mod_lt _ (by positivity)
  obtain ⟨cl, d', x2, k1, k2, k3, k4, k5, k6⟩ := mainLoop_spec (rb := List.replicate m 0 ++ rb') (ra := ra) hyt
    (le_trans (Nat.le_mul_of_pos_right _ (by norm_num)) h9) m x1 ((List.replicate (n + 2) 0).set m cn)
    (List.replicate (n + 2) 0) (by omega) (by simp; omega) (by simp; omega) hx1lt
  have hs5 : slice (x2 ++ ra) 0 y.length = some (x2.take y.length) := by
    rw [slice_append _ _ (by omega), List.drop_zero]
  obtain ⟨r1, r2, r3⟩ := rshb_spec h6 (x2.take y.length)
  have hx2t : wordsVal (x2.take y.length) = wordsVal x2 := by
    rw [wordsVal_take _ _ (by omega), Nat.mod_eq_of_lt (lt_trans k6 (wordsVal_lt y))]
  rw [List.length_take, min_eq_left (by omega)] at r1
  rw [hx2t] at r3
  have hfull : divnLow (List.replicate (n + 2) 0) (List.replicate (n + 2) 0) (a ++ [0, 0]) n
      (b ++ List.replicate (n + 2 - b.length) 0) b.length =
      some (cl ++ ((List.replicate (n + 2) 0).set m cn).drop m, put d' 0 (rshb norm (x2.take y.length)).1) := by
    rw [divnLow]
    simp only [Option.bind_eq_bind]
    rw [h1, Option.bind_some]
    dsimp only
    rw [← hm, if_neg (by omega), hs1, Option.bind_some, hl1, hp1, hs2, Option.bind_some, hs3, Option.bind_some, hc0,
      Option.bind_some, g1, Option.bind_some]
    dsimp only
    rw [hst, Option.bind_some, hs4, Option.bind_some, hr1, hp2, hp3, show y.length - 1 = t by omega, ← g2, k1,
      Option.bind_some]
    dsimp only
    rw [hs5, Option.bind_some, rshbShifts, if_pos h6, Option.bind_some, if_neg (by rw [k3]; simp; omega)]
  -- value of the quotient
  have hdrop : ((List.replicate (n + 2) (0 : UInt64)).set m cn).drop m = cn :: List.replicate (n + 1 - m) 0 := by
    rw [List.drop_eq_getElem_cons (by simp; omega), List.getElem_set_self, List.drop_set_of_lt (by omega),
      List.drop_replicate]
    congr 2; omega
  have hxdm : wordsVal x = 2 ^ (64 * m) * wordsVal y * cn.toNat + wordsVal x1 := by
    rw [g3, g4]; exact (Nat.div_add_mod _ _).symm
  have hclen : (cl ++ ((List.replicate (n + 2) (0 : UInt64)).set m cn).drop m).length = n + 2 := by
    rw [hdrop]; simp [k2]; omega
  have hQ : wordsVal (cl ++ ((List.replicate (n + 2) (0 : UInt64)).set m cn).drop m) =
      wordsVal cl + 2 ^ (64 * m) * cn.toNat := by
    rw [hdrop, wordsVal_append, wordsVal, wordsVal_replicate, k2, mul_zero, add_zero]
  set C := cl ++ ((List.replicate (n + 2) (0 : UInt64)).set m cn).drop m
  clear_value C
  have hxQ : 2 ^ norm * wordsVal a = wordsVal C * (2 ^ norm * wordsVal b) + wordsVal x2 := by
    rw [← h7, ← h8, hQ, hxdm, k5]; ring
  have hx2lt : wordsVal x2 < 2 ^ norm * wordsVal b := by rw [← h8]; exact k6
  have hQa : wordsVal C = wordsVal a / wordsVal b := by
    have e : wordsVal a / wordsVal b = (2 ^ norm * wordsVal a) / (2 ^ norm * wordsVal b) :=
      (Nat.mul_div_mul_left _ _ (by positivity)).symm
    rw [e, hxQ, Nat.add_comm, Nat.add_mul_div_right _ _ (by positivity), Nat.div_eq_of_lt hx2lt, zero_add]
  have hRa : wordsVal x2 = 2 ^ norm * (wordsVal a % wordsVal b) := by
    have e : 2 ^ norm * (wordsVal a % wordsVal b) = (2 ^ norm * wordsVal a) % (2 ^ norm * wordsVal b) :=
      (Nat.mul_mod_mul_left _ _ _).symm
    rw [e, hxQ, Nat.add_comm, Nat.add_mul_mod_self_right, Nat.mod_eq_of_lt hx2lt]
  refine ⟨C.take n, (rshb norm (x2.take y.length)).1.take b.length, ?_, ?_, ?_, ?_, ?_⟩
  · rw [divnSafe]
    simp only [Option.bind_eq_bind]
    rw [hn, hfull, Option.bind_some]
    dsimp only
    rw [put_zero, List.take_append_of_le_length (by omega)]
  · rw [List.length_take, hclen]; omega
  · rw [List.length_take]; omega
  · rw [wordsVal_take _ _ (by omega), hQa, ← hn, Nat.mod_eq_of_lt (lt_of_le_of_lt (Nat.div_le_self _ _) (wordsVal_lt a))]
  · rw [wordsVal_take _ _ (by omega), r3, hRa, Nat.mul_div_cancel_left _ (by positivity),
      Nat.mod_eq_of_lt (lt_trans (Nat.mod_lt _ hbpos) (wordsVal_lt b))]

theorem divnSafe_spec (a b : List UInt64) (hab : b.length ≤ a.length) (hb0 : b ≠ [])
    (htop1 : 2 ^ (64 * (b.length - 1)) ≤ wordsVal b) (htop2 : wordsVal b < 2 ^ (64 * (b.length - 1)) * 2 ^ 63) :
    ∃ q r, divnSafe a b = some (q, r) ∧ q.length = a.length ∧ r.length = b.length ∧
      wordsVal q = wordsVal a / wordsVal b ∧ wordsVal r = wordsVal a % wordsVal b := by
  have hl := List.length_pos_of_ne_nil hb0
  obtain ⟨x, ra, y, norm, h1, h2, h3, h4, h5, h6, h7, h8, h9⟩ := normalize_spec (aw := a) (bw := b) (n := a.length)
    (ra := [0, 0]) (rb := List.replicate (a.length + 2 - b.length) 0) rfl (by simp) hb0 htop1 htop2
  exact divnSafe_core a b hab (lt_of_lt_of_le (by positivity) htop1) rfl (t := b.length - 1) (by rw [h1, h2]) (by omega)
    (by omega) (by omega) h4 h5 h6 h7 h8 h9

/-! ## Divisors with the highest bit set -/

/-- Shifting a list of words left by 63 bits, with the word shifted out. -/
theorem lshb63 (l : List UInt64) : (lshb 63 l 0).1.length = l.length ∧
    wordsVal (lshb 63 l 0).1 + 2 ^ (64 * l.length) * (lshb 63 l 0).2.toNat = 2 ^ 63 * wordsVal l := by
  obtain ⟨l1, l2, l3⟩ := lshb_spec (bits := 63) (by norm_num) (by norm_num) l 0 (by rw [UInt64.toNat_zero]; norm_num)
  rw [UInt64.toNat_zero, add_zero] at l3
  exact ⟨l1, by rw [l3]⟩

/-- The word shifted out of the dividend is zero exactly for small dividends. -/
theorem lshb63_carry (l : List UInt64) : (lshb 63 l 0).2 = 0 ↔ 2 ^ 63 * wordsVal l < 2 ^ (64 * l.length) := by
  obtain ⟨h1, h2⟩ := lshb63 l
  have hlt := wordsVal_lt (lshb 63 l 0).1
  rw [h1] at hlt
  constructor
  · intro h
    rw [h, UInt64.toNat_zero, mul_zero, add_zero] at h2
    omega
  · intro h
    by_contra hne
    have hpos : 1 ≤ (lshb 63 l 0).2.toNat := by
      rcases Nat.eq_zero_or_pos (lshb 63 l 0).2.toNat with h0 | h0
      · exact absurd (UInt64.toNat_inj.1 (h0.trans UInt64.toNat_zero.symm)) hne
      · exact h0
    have := Nat.mul_le_mul_left (2 ^ (64 * l.length)) hpos
    omega

theorem normalize_wide {aw bw : List UInt64} {n k : ℕ} (ha : aw.length = n) (hb0 : bw ≠ [])
    (htop : 2 ^ (64 * (bw.length - 1)) * 2 ^ 63 ≤ wordsVal bw) :
    ∃ x ra y, normalize (aw ++ [0, 0]) n (bw ++ List.replicate (k + 1) 0) bw.length =
        some (x ++ ra, x.length, y ++ List.replicate k 0, y.length, 63) ∧
      y.length = bw.length + 1 ∧ x.length = (if 2 ^ 63 * wordsVal aw < 2 ^ (64 * n) then n else n + 1) ∧
      x.length + ra.length = n + 2 ∧ wordsVal x = 2 ^ 63 * wordsVal aw ∧ wordsVal y = 2 ^ 63 * wordsVal bw := by
  obtain ⟨t, ht⟩ : ∃ t, bw.length = t + 1 := ⟨bw.length - 1, by
    have := List.length_pos_of_ne_nil hb0; omega⟩
  rw [ht, Nat.add_sub_cancel] at htop
  obtain ⟨bt, hbt, vbt⟩ := get_append bw (List.replicate (k + 1) 0) (i := t) (by omega)
  have hb1 : bt.toNat = wordsVal bw / 2 ^ (64 * t) := by
    rw [vbt, Nat.mod_eq_of_lt]
    rw [Nat.div_lt_iff_lt_mul (by positivity), mul_comm]
    have := wordsVal_lt bw; rw [ht, pow64_succ] at this; exact this
  have hbge : 2 ^ 63 ≤ bt.toNat := by rw [hb1, Nat.le_div_iff_mul_le (by positivity), mul_comm]; exact htop
  have hsz : bt.toNat.size = 64 := le_antisymm (Nat.size_le.2 bt.toNat_lt) (Nat.lt_size.2 hbge)
  have hnorm : (64 - Scalar.countlZero bt) % 64 = 0 := by rw [Scalar.countlZero_spec, hsz]
  obtain ⟨l1, l2⟩ := lshb63 aw
  obtain ⟨m1, m2⟩ := lshb63 bw
  have la := lshb63_carry aw
  have lb := lshb63_carry bw
  rw [ha] at l1 l2 la
  have hbc : (lshb 63 bw 0).2 ≠ 0 := by
    rw [ne_eq, lb, not_lt, ht, pow64_succ]
    calc 2 ^ (64 * t) * 2 ^ 64 ≤ 2 ^ 63 * (2 ^ (64 * t) * 2 ^ 63) := by
          rw [mul_left_comm]; exact Nat.mul_le_mul_left _ (by norm_num)
      _ ≤ 2 ^ 63 * wordsVal bw := Nat.mul_le_mul_left _ htop
  have hsa : slice (aw ++ [0, 0]) 0 n = some aw := by
    rw [slice_append _ _ (by omega), List.drop_zero, ← ha, List.take_length]
  have hsb : slice (bw ++ List.replicate (k + 1) 0) 0 (t + 1) = some bw := by
    rw [slice_append _ _ (by omega), List.drop_zero, ← ht, List.take_length]
  have hpa : put (aw ++ [0, 0]) 0 (lshb 63 aw 0).1 = (lshb 63 aw 0).1 ++ [0, 0] := by
    rw [put_zero, l1, ← ha, List.drop_left']; rfl
  have hpb : put (bw ++ List.replicate (k + 1) 0) 0 (lshb 63 bw 0).1 = (lshb 63 bw 0).1 ++ List.replicate (k + 1) 0 := by
    rw [put_zero, m1, List.drop_left']; rfl
  have hstb : store ((lshb 63 bw 0).1 ++ List.replicate (k + 1) 0) (t + 1) (lshb 63 bw 0).2 =
      some (((lshb 63 bw 0).1 ++ [(lshb 63 bw 0).2]) ++ List.replicate k 0) := by
    rw [store_eq _ (by rw [List.length_append, m1, List.length_replicate]; omega), List.replicate_succ,
      List.set_append_right _ _ (by omega), m1, ht, Nat.sub_self, List.set_cons_zero, List.append_assoc]
    rfl
  have hrun : normalize (aw ++ [0, 0]) n (bw ++ List.replicate (k + 1) 0) (t + 1) =
      (if (lshb 63 aw 0).2 ≠ 0 then store ((lshb 63 aw 0).1 ++ [0, 0]) n (lshb 63 aw 0).2
        else some ((lshb 63 aw 0).1 ++ [0, 0])).bind fun a =>
      some (a, if (lshb 63 aw 0).2 ≠ 0 then n + 1 else n, ((lshb 63 bw 0).1 ++ [(lshb 63 bw 0).2]) ++ List.replicate k 0,
        t + 1 + 1, 63) := by
    rw [normalize]
    simp only [Option.bind_eq_bind]
    rw [if_neg (by omega), Nat.add_sub_cancel, hbt, Option.bind_some, hnorm, if_pos (by norm_num), Nat.sub_zero, lshbShifts,
      if_pos (by norm_num), Option.bind_some, hsa, Option.bind_some, hpa]
    congr 1
    funext a
    rw [hsb, Option.bind_some, hpb]
    rw [if_pos hbc, if_pos hbc, hstb, Option.bind_some]
  have hyl : ((lshb 63 bw 0).1 ++ [(lshb 63 bw 0).2]).length = t + 1 + 1 := by
    rw [List.length_append, m1, ht]; rfl
  have hyv : wordsVal ((lshb 63 bw 0).1 ++ [(lshb 63 bw 0).2]) = 2 ^ 63 * wordsVal bw := by
    rw [wordsVal_append, wordsVal, wordsVal, m1, mul_zero, add_zero, m2]
  rw [ht]
  by_cases hac : (lshb 63 aw 0).2 ≠ 0
  · rw [if_pos hac, if_pos hac, store_eq _ (by rw [List.length_append, l1]; simp), Option.bind_some] at hrun
    have hset : ((lshb 63 aw 0).1 ++ [0, 0]).set n (lshb 63 aw 0).2 = ((lshb 63 aw 0).1 ++ [(lshb 63 aw 0).2]) ++ [0] := by
      rw [List.set_append_right _ _ (by omega), l1, Nat.sub_self, List.set_cons_zero, List.append_assoc]; rfl
    have hxl : ((lshb 63 aw 0).1 ++ [(lshb 63 aw 0).2]).length = n + 1 := by rw [List.length_append, l1]; rfl
    refine ⟨(lshb 63 aw 0).1 ++ [(lshb 63 aw 0).2], [0], (lshb 63 bw 0).1 ++ [(lshb 63 bw 0).2], ?_, hyl, ?_, ?_, ?_, hyv⟩
    · rw [hrun, hset, hxl, hyl]
    · rw [hxl, if_neg (fun h => hac (la.2 h))]
    · rw [hxl]; rfl
    · rw [wordsVal_append, wordsVal, wordsVal, l1, mul_zero, add_zero, l2]
  · have hac0 : (lshb 63 aw 0).2 = 0 := not_not.1 hac
    rw [if_neg hac, if_neg hac, Option.bind_some] at hrun
    refine ⟨(lshb 63 aw 0).1, [0, 0], (lshb 63 bw 0).1 ++ [(lshb 63 bw 0).2], ?_, hyl, ?_, ?_, ?_, hyv⟩
    · rw [hrun, l1, hyl]
    · rw [l1, if_pos (la.1 hac0)]
    · rw [l1]; rfl
    · rw [hac0, UInt64.toNat_zero, mul_zero, add_zero] at l2; exact l2

theorem divnSafe_wide (a b : List UInt64) (hab : b.length ≤ a.length) (hb0 : b ≠ [])
    (htop : 2 ^ (64 * (b.length - 1)) * 2 ^ 63 ≤ wordsVal b)
    (h : b.length < a.length ∨ 2 ^ (64 * a.length) ≤ 2 ^ 63 * wordsVal a) :
    ∃ q r, divnSafe a b = some (q, r) ∧ q.length = a.length ∧ r.length = b.length ∧
      wordsVal q = wordsVal a / wordsVal b ∧ wordsVal r = wordsVal a % wordsVal b := by
  have hl := List.length_pos_of_ne_nil hb0
  obtain ⟨x, ra, y, h1, h2, h3, h5, h7, h8⟩ := normalize_wide (aw := a) (bw := b) (n := a.length)
    (k := a.length + 1 - b.length) rfl hb0 htop
  rw [show a.length + 1 - b.length + 1 = a.length + 2 - b.length by omega,
    show a.length + 1 - b.length = a.length + 2 - y.length by omega] at h1
  have hxl : x.length ≤ a.length + 1 ∧ y.length ≤ x.length := by
    rw [h3, h2]
    split_ifs with hc
    · exact ⟨by omega, by omega⟩
    · exact ⟨by omega, by omega⟩
  refine divnSafe_core a b hab (lt_of_lt_of_le (by positivity) htop) rfl (t := b.length) h1 h2
    (by omega) hxl.2 hxl.1 h5 (by norm_num) h7 h8 ?_
  rw [h8]
  calc 2 ^ (64 * b.length) * 2 ^ 62 = 2 ^ 63 * (2 ^ (64 * (b.length - 1)) * 2 ^ 63) := by
        rw [← pow_add, ← pow_add, ← pow_add]; congr 1; omega
    _ ≤ 2 ^ 63 * wordsVal b := Nat.mul_le_mul_left _ htop

theorem divnSafe_wide_none (a b : List UInt64) (hb0 : b ≠ [])
    (htop : 2 ^ (64 * (b.length - 1)) * 2 ^ 63 ≤ wordsVal b) (hab : b.length = a.length)
    (h : 2 ^ 63 * wordsVal a < 2 ^ (64 * a.length)) : divnSafe a b = none := by
  obtain ⟨x, ra, y, h1, h2, h3, h5, h7, h8⟩ := normalize_wide (aw := a) (bw := b) (n := a.length)
    (k := a.length + 1 - b.length) rfl hb0 htop
  rw [show a.length + 1 - b.length + 1 = a.length + 2 - b.length by omega] at h1
  rw [if_pos h] at h3
  rw [divnSafe]
  simp only [Option.bind_eq_bind]
  rw [divnLow]
  simp only [Option.bind_eq_bind]
  rw [h1, Option.bind_some]
  dsimp only
  rw [if_pos (by omega)]
  rfl

end Bls.Division
