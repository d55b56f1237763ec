import Verif.Model.DivisionRun
import Verif.Proof.Division

/-! The rounds of the loops of `bn_divn_low`. -/

namespace Bls.Division

/-! ## The values -/

theorem topLoopRun_fst : ∀ (fuel : ℕ) (cn : UInt64) (x y : List UInt64) (n : ℕ),
    (topLoopRun fuel cn x y n).map Prod.fst = topLoop fuel cn x y
  | 0, _, _, _, _ => rfl
  | fuel + 1, cn, x, y, n => by
    rw [topLoopRun, topLoop]
    split_ifs
    · exact topLoopRun_fst fuel _ _ _ _
    · rfl

theorem digitLoopRun_fst (v t2 : List UInt64) : ∀ (fuel : ℕ) (q : UInt64) (n : ℕ),
    (digitLoopRun v t2 fuel q n).map Prod.fst = digitLoop v t2 fuel q
  | 0, _, _ => rfl
  | fuel + 1, q, n => by
    rw [digitLoopRun, digitLoop]
    dsimp only
    split_ifs
    · exact digitLoopRun_fst v t2 fuel _ _
    · rfl

theorem estimateRun_fst (a b : List UInt64) (t i : ℕ) : (estimateRun a b t i).map Prod.fst = estimate a b t i := by
  rw [estimateRun, estimate]
  simp only [Option.bind_eq_bind, Option.map_bind, Function.comp_def, digitLoopRun_fst]

theorem roundRun_fst (b : List UInt64) (sa t k : ℕ) (s : List UInt64 × List UInt64 × List UInt64) :
    (roundRun b sa t k s).map Prod.fst = round b sa t k s := by
  obtain ⟨c, d, a⟩ := s
  rw [roundRun, round]
  simp only [Option.bind_eq_bind, Option.map_bind, Function.comp_def]
  rw [← estimateRun_fst a b t (k + t + 1)]
  cases estimateRun a b t (k + t + 1) with
  | none => rfl
  | some r =>
    rw [Option.map_some, Option.bind_some, Option.bind_some]
    congr 1
    funext bw
    congr 1
    funext r'
    split_ifs
    · simp only [Option.map_bind, Function.comp_def, Option.map_some]
    · simp only [Option.map_bind, Function.comp_def, Option.map_some]

theorem mainLoopRun_fst (b : List UInt64) (sa t : ℕ) : ∀ (m : ℕ) (s : List UInt64 × List UInt64 × List UInt64) (ds : List Digit),
    (mainLoopRun b sa t m s ds).map Prod.fst = mainLoop b sa t m s
  | 0, _, _ => rfl
  | k + 1, s, ds => by
    rw [mainLoopRun, mainLoop, ← roundRun_fst]
    cases roundRun b sa t k s with
    | none => rfl
    | some r => exact mainLoopRun_fst b sa t k r.1 _

theorem map_bind' {α β γ : Type} (o : Option α) (f : α → Option β) (g : β → γ) {h : α → Option γ}
    (hh : ∀ a, (f a).map g = h a) : (o.bind f).map g = o.bind h := by
  cases o with
  | none => rfl
  | some a => exact hh a

theorem map_bind_fst {α α' β γ : Type} (o : Option (α × α')) (f : α × α' → Option β) (g : β → γ) {o' : Option α}
    (ho : o.map Prod.fst = o') {h : α → Option γ} (hh : ∀ a, (f a).map g = h a.1) : (o.bind f).map g = o'.bind h := by
  subst ho
  cases o with
  | none => rfl
  | some a => exact hh a

theorem divnLowRun_fst (c d a : List UInt64) (sa : ℕ) (b : List UInt64) (sb : ℕ) :
    (divnLowRun c d a sa b sb).map Prod.fst = divnLow c d a sa b sb := by
  rw [divnLowRun, divnLow]
  refine map_bind' _ _ _ fun r => ?_
  dsimp only
  by_cases hc : r.2.1 < r.2.2.2.1
  · rw [if_pos hc, if_pos hc]; rfl
  rw [if_neg hc, if_neg hc]
  refine map_bind' _ _ _ fun bw => map_bind' _ _ _ fun x => map_bind' _ _ _ fun y => map_bind' _ _ _ fun cn =>
    map_bind_fst _ _ _ (topLoopRun_fst _ _ _ _ _) fun r' => map_bind' _ _ _ fun c' => map_bind' _ _ _ fun bw' =>
    map_bind_fst _ _ _ (mainLoopRun_fst _ _ _ _ _ _) fun r'' => map_bind' _ _ _ fun aw => map_bind' _ _ _ fun u => ?_
  by_cases hd : r''.1.2.1.length < r.2.2.2.1
  · rw [if_pos hd, if_pos hd]; rfl
  · rw [if_neg hd, if_neg hd]; rfl

theorem divnSafeRun_fst (a b : List UInt64) : (divnSafeRun a b).map Prod.fst = divnSafe a b := by
  rw [divnSafeRun, divnSafe]
  simp only [Option.bind_eq_bind, Option.map_bind, Function.comp_def]
  rw [← divnLowRun_fst]
  generalize divnLowRun _ _ _ _ _ _ = o
  cases o with
  | none => rfl
  | some r => rfl

/-! ## The counts -/

theorem topLoopRun_count (y : List UInt64) (hy : 0 < wordsVal y) : ∀ (fuel : ℕ) (cn : UInt64) (x : List UInt64) (n : ℕ) {r n'},
    x.length = y.length → topLoopRun fuel cn x y n = some (r, n') → n' = n + wordsVal x / wordsVal y
  | 0, _, _, _, _, _, _, h => absurd h (by rw [topLoopRun]; simp)
  | fuel + 1, cn, x, n, r, n', hl, h => by
    rw [topLoopRun, dvCmp_spec x y hl] at h
    by_cases hlt : wordsVal x < wordsVal y
    · rw [if_neg (by rw [not_not, Nat.compare_eq_lt]; exact hlt)] at h
      rw [Nat.div_eq_of_lt hlt, add_zero]
      exact (Prod.mk.inj (Option.some.inj h)).2.symm
    · rw [if_pos (by rw [ne_eq, Nat.compare_eq_lt]; exact hlt)] at h
      obtain ⟨s1, s2, s3⟩ := subn_spec x y 0 hl (by decide)
      rw [UInt64.toNat_zero, add_zero] at s3
      have hr := wordsVal_lt (subn x y 0).1
      rw [s1] at hr
      have hc0 : (subn x y 0).2.toNat = 0 := by
        by_contra hne
        have : (subn x y 0).2.toNat = 1 := by omega
        rw [this] at s3
        omega
      rw [hc0, mul_zero, add_zero] at s3
      have hval : wordsVal (subn x y 0).1 = wordsVal x - wordsVal y := by omega
      have hi := topLoopRun_count y hy fuel _ _ _ (s1.trans hl) h
      rw [hi, hval, Nat.div_eq_sub_div hy (by omega : wordsVal y ≤ wordsVal x)]
      omega

theorem digitLoopRun_count (v t2 : List UInt64) (hv : v.length = 2) (ht : t2.length = 3) :
    ∀ (fuel : ℕ) (q0 : UInt64) (n : ℕ) {q n'}, digitLoopRun v t2 fuel (q0 + 1) n = some (q, n') →
    n' = n + 1 + (q0.toNat - q.toNat) ∧ q.toNat ≤ q0.toNat ∧ (q.toNat < q0.toNat → wordsVal t2 < wordsVal v * (q.toNat + 1))
  | 0, _, _, _, _, h => absurd h (by rw [digitLoopRun]; simp)
  | fuel + 1, q0, n, q, n', h => by
    have e : q0 + 1 - 1 = q0 := by rw [UInt64.add_sub_cancel]
    obtain ⟨hl, hm⟩ := mul1_spec q0 v 0
    have hval : wordsVal ((mul1 q0 v 0).1 ++ [(mul1 q0 v 0).2]) = wordsVal v * q0.toNat := by
      rw [wordsVal_append, wordsVal, wordsVal, hl, mul_zero, add_zero, hm, UInt64.toNat_zero, add_zero]
    have hcmp : dvCmp ((mul1 q0 v 0).1 ++ [(mul1 q0 v 0).2]) t2 = compare (wordsVal v * q0.toNat) (wordsVal t2) := by
      rw [dvCmp_spec _ _ (by rw [List.length_append, hl, hv, ht]; rfl), hval]
    rw [digitLoopRun] at h
    simp only [e, hcmp] at h
    by_cases hgt : wordsVal t2 < wordsVal v * q0.toNat
    · rw [if_pos (by rw [Nat.compare_eq_gt]; exact hgt)] at h
      have hpos : 0 < q0.toNat := by
        rcases Nat.eq_zero_or_pos q0.toNat with h0 | h0
        · rw [h0] at hgt; simp at hgt
        · exact h0
      have hq1 : (q0 - 1).toNat = q0.toNat - 1 := by
        rw [UInt64.toNat_sub_of_le _ _ (by rw [UInt64.le_iff_toNat_le]; exact hpos)]; rfl
      rw [← UInt64.sub_add_cancel q0 1] at h
      obtain ⟨h1, h2, h3⟩ := digitLoopRun_count v t2 hv ht fuel (q0 - 1) (n + 1) h
      rw [hq1] at h1 h2 h3
      refine ⟨by omega, by omega, fun _ => ?_⟩
      rcases Nat.lt_or_ge q.toNat (q0.toNat - 1) with hlt | hge
      · exact h3 hlt
      · rw [show q.toNat + 1 = q0.toNat by omega]
        exact hgt
    · rw [if_neg (by rw [Nat.compare_eq_gt]; exact hgt)] at h
      obtain ⟨rfl, rfl⟩ := Prod.mk.inj (Option.some.inj h)
      exact ⟨by omega, le_rfl, fun h => absurd h (lt_irrefl _)⟩

/-- The number of corrections, from the two top words `v1`, `v0` of the divisor. -/
theorem corrections {v0 v1 u0 u1 u2 q0 q D β : ℕ} (h0 : q0 * v1 ≤ u2 * β + u1) (hq0 : q0 < β)
    (hD : β * v0 ≤ D * (v0 + β * v1))
    (h : u0 + β * (u1 + β * u2) < (v0 + β * v1) * (q + 1)) (hle : q ≤ q0) : q0 - q ≤ D := by
  by_contra hc
  have h1 : q + 1 + D ≤ q0 := by omega
  have h2 : (v0 + β * v1) * (q + 1 + D) ≤ (v0 + β * v1) * q0 := Nat.mul_le_mul_left _ h1
  have h3 : (v0 + β * v1) * q0 = v0 * q0 + β * (q0 * v1) := by ring
  have h4 : β * (q0 * v1) ≤ β * (u2 * β + u1) := Nat.mul_le_mul_left _ h0
  have h5 : v0 * q0 ≤ β * v0 := by rw [mul_comm]; exact Nat.mul_le_mul_right _ hq0.le
  have h6 : β * (u1 + β * u2) = β * (u2 * β + u1) := by ring
  have h7 : (v0 + β * v1) * (q + 1 + D) = (v0 + β * v1) * (q + 1) + D * (v0 + β * v1) := by ring
  omega

/-- The rounds for one digit: at most `D + 1` if `2^64 v0 ≤ D (v0 + 2^64 v1)` for the top words `v1`, `v0` of the divisor. -/
theorem estimateRun_count {a b : List UInt64} {t i D : ℕ} {bt v0 q : UInt64} {n : ℕ} (hbt : b[t]? = some bt) (hpos : 0 < bt.toNat)
    (hv0 : (if t = 0 then some 0 else b[t - 1]?) = some v0) (hD : 2 ^ 64 * v0.toNat ≤ D * (v0.toNat + 2 ^ 64 * bt.toNat))
    (h : estimateRun a b t i = some (q, n)) : 1 ≤ n ∧ n ≤ D + 1 := by
  rw [estimateRun] at h
  simp only [Option.bind_eq_bind, Option.bind_eq_some_iff] at h
  obtain ⟨ai, -, ai1, -, bt', hbt', q0, hq0, v0', hv0', u0, -, hl⟩ := h
  rw [hbt] at hbt'
  obtain rfl := Option.some.inj hbt'
  rw [hv0] at hv0'
  obtain rfl := Option.some.inj hv0'
  have hq : q0.toNat * bt.toNat ≤ ai.toNat * 2 ^ 64 + ai1.toNat := by
    by_cases he : ai = bt
    · rw [if_pos he] at hq0
      subst he
      have := Option.some.inj hq0
      subst this
      rw [mul_comm]
      exact le_trans (Nat.mul_le_mul_left _ (by decide : (0xFFFFFFFFFFFFFFFF : UInt64).toNat ≤ 2 ^ 64)) (Nat.le_add_right _ _)
    · rw [if_neg he, if_neg (by rintro rfl; simp at hpos)] at hq0
      have := Option.some.inj hq0
      subst this
      rw [UInt64.toNat_ofNat']
      exact le_trans (Nat.mul_le_mul_right _ (Nat.mod_le _ _)) (Nat.div_mul_le_self _ _)
  obtain ⟨h1, h2, h3⟩ := digitLoopRun_count _ _ rfl rfl _ _ _ hl
  simp only [wordsVal, mul_zero, add_zero] at h3
  rcases Nat.lt_or_ge q.toNat q0.toNat with hlt | hge
  · have := corrections hq (u64_lt q0) hD (h3 hlt) h2
    omega
  · omega

theorem mainLoopRun_count {b : List UInt64} {sa t D : ℕ} {bt v0 : UInt64} (hbt : b[t]? = some bt) (hpos : 0 < bt.toNat)
    (hv0 : (if t = 0 then some 0 else b[t - 1]?) = some v0) (hD : 2 ^ 64 * v0.toNat ≤ D * (v0.toNat + 2 ^ 64 * bt.toNat)) :
    ∀ (m : ℕ) (s : List UInt64 × List UInt64 × List UInt64) (ds : List Digit) {r ds'}, mainLoopRun b sa t m s ds = some (r, ds') →
    (∀ d ∈ ds, 1 ≤ d.rounds ∧ d.rounds ≤ D + 1) →
    ds'.length = ds.length + m ∧ ∀ d ∈ ds', 1 ≤ d.rounds ∧ d.rounds ≤ D + 1
  | 0, _, _, _, _, h, hd => by
    obtain ⟨-, rfl⟩ := Prod.mk.inj (Option.some.inj h)
    exact ⟨rfl, hd⟩
  | k + 1, s, ds, r, ds', h, hd => by
    rw [mainLoopRun] at h
    cases hr : roundRun b sa t k s with
    | none => rw [hr] at h; exact absurd h (by simp)
    | some rd =>
      rw [hr] at h
      obtain ⟨g1, g2⟩ := mainLoopRun_count hbt hpos hv0 hD k _ _ h (by
        intro d hmem
        rcases List.mem_append.1 hmem with hm | hm
        · exact hd d hm
        · rw [List.mem_singleton] at hm
          subst hm
          obtain ⟨c, d, a⟩ := s
          rw [roundRun] at hr
          simp only [Option.bind_eq_bind, Option.bind_eq_some_iff] at hr
          obtain ⟨⟨q, n⟩, he, bw, -, r', -, hr⟩ := hr
          have hn := estimateRun_count hbt hpos hv0 hD he
          split_ifs at hr
          · simp only [Option.bind_eq_some_iff] at hr
            obtain ⟨_, _, _, _, hr⟩ := hr
            rw [← Option.some.inj hr]
            exact hn
          · simp only [Option.bind_eq_some_iff] at hr
            obtain ⟨_, _, hr⟩ := hr
            rw [← Option.some.inj hr]
            exact hn)
      refine ⟨?_, g2⟩
      rw [g1, List.length_append, List.length_singleton]
      omega

/-- The counts of a division after a normalisation. -/
theorem divnSafeRun_core (a b : List UInt64) {n : ℕ} (hn : a.length = n)
    {x ra y : List UInt64} {norm t D : ℕ} {bt v0 : UInt64}
    (h1 : normalize (a ++ [0, 0]) n (b ++ List.replicate (n + 2 - b.length) 0) b.length =
      some (x ++ ra, x.length, y ++ List.replicate (n + 2 - y.length) 0, y.length, norm)) (hyt : y.length = t + 1)
    (hyx : y.length ≤ x.length) (h4 : x.length ≤ n + 1) (hypos : 0 < wordsVal y)
    (hbt : y[t]? = some bt) (hpos : 0 < bt.toNat)
    (hv0 : (if t = 0 then some 0 else y[t - 1]?) = some v0) (hD : 2 ^ 64 * v0.toNat ≤ D * (v0.toNat + 2 ^ 64 * bt.toNat))
    {r : List UInt64 × List UInt64} {top : ℕ} {digits : List Digit} (h : divnSafeRun a b = some (r, top, digits)) :
    top = wordsVal x / (2 ^ (64 * (x.length - y.length)) * wordsVal y) ∧ digits.length = x.length - y.length ∧
      ∀ d ∈ digits, 1 ≤ d.rounds ∧ d.rounds ≤ D + 1 := by
  obtain ⟨m, hm⟩ : ∃ m, m = x.length - y.length := ⟨_, rfl⟩
  have hmx : m + t + 1 = x.length := by omega
  have hrb : List.replicate (n + 2 - y.length) (0 : UInt64) =
      List.replicate m 0 ++ List.replicate (n + 2 - y.length - m) 0 := by
    rw [List.replicate_append_replicate]; congr 1; omega
  set rb' : List UInt64 := List.replicate (n + 2 - y.length - m) 0 with hrb'
  have hs1 : slice (y ++ List.replicate (n + 2 - y.length) 0) 0 (y.length + m) = some (y ++ List.replicate m 0) := by
    rw [hrb, ← List.append_assoc, slice_append _ _ (by simp), List.drop_zero]
    rw [List.take_of_length_le (by simp)]
  have hl1 : lshd (y ++ List.replicate m 0) m = List.replicate m 0 ++ y := by
    rw [lshd, List.length_append, List.length_replicate, Nat.add_sub_cancel, List.take_left']; rfl
  have hp1 : put (y ++ List.replicate (n + 2 - y.length) 0) 0 (List.replicate m 0 ++ y) =
      (List.replicate m 0 ++ y) ++ rb' := by
    rw [put_zero, hrb, ← List.append_assoc, List.drop_left' (by simp; omega)]
  have hs2 : slice (x ++ ra) 0 x.length = some x := by
    rw [slice_append _ _ (by omega), List.drop_zero, List.take_length]
  have hs3 : slice ((List.replicate m 0 ++ y) ++ rb') 0 x.length = some (List.replicate m 0 ++ y) := by
    rw [slice_append _ _ (by simp; omega), List.drop_zero, List.take_of_length_le (by simp; omega)]
  have hs4 : slice ((List.replicate m 0 ++ y) ++ rb') 0 (y.length + m) = some (List.replicate m 0 ++ y) := by
    rw [slice_append _ _ (by simp; omega), List.drop_zero, List.take_of_length_le (by simp; omega)]
  have hr1 : rshd (List.replicate m 0 ++ y) m = y ++ List.replicate m 0 := by
    rw [rshd, List.drop_left' (by simp)]
  have hp2 : put ((List.replicate m 0 ++ y) ++ rb') 0 (y ++ List.replicate m 0) = y ++ (List.replicate m 0 ++ rb') := by
    rw [put_zero, List.drop_left' (by simp; omega), List.append_assoc]
  have hyv : wordsVal (List.replicate m 0 ++ y) = 2 ^ (64 * m) * wordsVal y := by
    rw [wordsVal_append, wordsVal_replicate, List.length_replicate, zero_add]
  rw [divnSafeRun] at h
  simp only [Option.bind_eq_bind] at h
  obtain ⟨⟨⟨c, d⟩, top', digits'⟩, hlow, he⟩ := Option.bind_eq_some_iff.1 h
  have he' := Option.some.inj he
  obtain ⟨-, he2⟩ := Prod.mk.inj he'
  obtain ⟨rfl, rfl⟩ := Prod.mk.inj he2
  rw [hn, divnLowRun] at hlow
  simp only [Option.bind_eq_bind] at hlow
  rw [h1, Option.bind_some] at hlow
  dsimp only at hlow
  rw [← hm, if_neg (by omega), hs1, Option.bind_some, hl1, hp1, hs2, Option.bind_some, hs3, Option.bind_some] at hlow
  obtain ⟨cn, -, hlow⟩ := Option.bind_eq_some_iff.1 hlow
  obtain ⟨⟨⟨cn', x'⟩, n'⟩, ht, hlow⟩ := Option.bind_eq_some_iff.1 hlow
  obtain ⟨c', -, hlow⟩ := Option.bind_eq_some_iff.1 hlow
  rw [hs4, Option.bind_some, hr1, hp2, show y.length - 1 = t by omega] at hlow
  obtain ⟨⟨⟨c2, d2, a2⟩, ds⟩, hmain, hlow⟩ := Option.bind_eq_some_iff.1 hlow
  obtain ⟨aw, -, hlow⟩ := Option.bind_eq_some_iff.1 hlow
  obtain ⟨u, -, hlow⟩ := Option.bind_eq_some_iff.1 hlow
  split_ifs at hlow
  obtain ⟨-, hl2⟩ := Prod.mk.inj (Option.some.inj hlow)
  obtain ⟨rfl, rfl⟩ := Prod.mk.inj hl2
  have htc := topLoopRun_count _ (by rw [hyv]; positivity) _ _ _ _ (by simp; omega) ht
  rw [hyv, zero_add] at htc
  have hget : ∀ (i : ℕ) (l : List UInt64), i < y.length → (y ++ l)[i]? = y[i]? := fun i l hi =>
    List.getElem?_append_left hi
  obtain ⟨g1, g2⟩ := mainLoopRun_count (D := D) (bt := bt) (v0 := v0) (by rw [hget _ _ (by omega)]; exact hbt) hpos
    (by
      by_cases h0 : t = 0
      · rw [if_pos h0] at hv0 ⊢; exact hv0
      · rw [if_neg h0] at hv0 ⊢
        rw [hget _ _ (by omega)]
        exact hv0) hD _ _ _ hmain (by simp)
  rw [← hm]
  refine ⟨htc, ?_, g2⟩
  rw [g1]
  simp

end Bls.Division
