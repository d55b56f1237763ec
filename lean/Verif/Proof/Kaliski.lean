import Verif.Proof.FpInverse
import Verif.Spec.Kaliski
import Verif.Model.InverseRun

/-! The number of rounds of `fp::inverse` and the size of its variables. -/

namespace Bls.Kaliski

set_option exponentiation.threshold 1000

/-- Invariant on integers. -/
structure Inv (t : State) : Prop where
  sum : p = t.u * t.s + t.v * t.r
  cop : Nat.Coprime t.u t.v
  hu : 1 ≤ t.u
  hs : 1 ≤ t.s

theorem Inv.step {t : State} (I : Inv t) (hv : t.v ≠ 0) : Inv (step t) ∧ 2 * ((step t).u * (step t).v) ≤ t.u * t.v ∧
    t.u + t.v ≤ 2 * ((step t).u + (step t).v) ∧ (step t).u ≤ t.u ∧ (step t).v ≤ t.v := by
  obtain ⟨u, v, s, r⟩ := t
  obtain ⟨sum, cop, hu, hs⟩ := I
  dsimp only at *
  unfold Kaliski.step
  dsimp only
  by_cases h1 : u % 2 = 0
  · rw [if_pos h1]
    obtain ⟨w, rfl⟩ : ∃ w, u = 2 * w := ⟨u / 2, by omega⟩
    have e : 2 * w / 2 = w := by omega
    rw [e]
    refine ⟨⟨by rw [sum]; ring, Nat.Coprime.coprime_dvd_left ⟨2, by ring⟩ cop,
      by show 1 ≤ w; omega, by show 1 ≤ 2 * s; omega⟩, ?_, ?_, ?_, le_rfl⟩
    · exact (by ring : 2 * (w * v) = 2 * w * v).le
    · show 2 * w + v ≤ 2 * (w + v); omega
    · show w ≤ 2 * w; omega
  rw [if_neg h1]
  by_cases h2 : v % 2 = 0
  · rw [if_pos h2]
    obtain ⟨w, rfl⟩ : ∃ w, v = 2 * w := ⟨v / 2, by omega⟩
    have e : 2 * w / 2 = w := by omega
    rw [e]
    refine ⟨⟨by rw [sum]; ring, Nat.Coprime.coprime_dvd_right ⟨2, by ring⟩ cop, hu, hs⟩, ?_, ?_, le_rfl, ?_⟩
    · exact (by ring : 2 * (u * w) = u * (2 * w)).le
    · show u + 2 * w ≤ 2 * (u + w); omega
    · show w ≤ 2 * w; omega
  rw [if_neg h2]
  by_cases h3 : v < u
  · rw [if_pos h3]
    obtain ⟨w, rfl⟩ : ∃ w, u = 2 * w + v := ⟨(u - v) / 2, by omega⟩
    have e : (2 * w + v - v) / 2 = w := by omega
    rw [e]
    refine ⟨⟨by rw [sum]; ring, ?_, by show 1 ≤ w; omega, by show 1 ≤ 2 * s; omega⟩, ?_, ?_, ?_, le_rfl⟩
    · rw [Nat.coprime_add_self_left] at cop
      exact Nat.Coprime.coprime_dvd_left ⟨2, by ring⟩ cop
    · show 2 * (w * v) ≤ (2 * w + v) * v
      have : (2 * w + v) * v = 2 * (w * v) + v * v := by ring
      omega
    · show 2 * w + v + v ≤ 2 * (w + v); omega
    · show w ≤ 2 * w + v; omega
  · rw [if_neg h3]
    obtain ⟨w, rfl⟩ : ∃ w, v = 2 * w + u := ⟨(v - u) / 2, by omega⟩
    have e : (2 * w + u - u) / 2 = w := by omega
    rw [e]
    refine ⟨⟨by rw [sum]; ring, ?_, hu, by show 1 ≤ s + r; omega⟩, ?_, ?_, le_rfl, ?_⟩
    · rw [Nat.coprime_add_self_right] at cop
      exact Nat.Coprime.coprime_dvd_right ⟨2, by ring⟩ cop
    · show 2 * (u * w) ≤ u * (2 * w + u)
      have : u * (2 * w + u) = 2 * (u * w) + u * u := by ring
      omega
    · show u + (2 * w + u) ≤ 2 * (u + w); omega
    · show w ≤ 2 * w + u; omega

theorem state_succ (a i : ℕ) : state a (i + 1) = step (state a i) := Function.iterate_succ_apply' _ _ _

/-- As long as the algorithm runs. -/
theorem inv_state {a : ℕ} (ha : a ≠ 0) (hp : a < p) : ∀ i, (∀ j < i, (state a j).v ≠ 0) → Inv (state a i) ∧
    2 ^ i * ((state a i).u * (state a i).v) ≤ p * a ∧ p + a ≤ 2 ^ i * ((state a i).u + (state a i).v) ∧
    (state a i).u ≤ p ∧ (state a i).v ≤ a
  | 0, _ => by
    refine ⟨⟨?_, ?_, X86.p_pos, le_rfl⟩, ?_, ?_, le_rfl, le_rfl⟩
    · show p = p * 1 + a * 0; ring
    · exact (Nat.Prime.coprime_iff_not_dvd p_prime).2 fun h => ha (Nat.eq_zero_of_dvd_of_lt h hp)
    · show 2 ^ 0 * (p * a) ≤ _; rw [pow_zero, one_mul]
    · show _ ≤ 2 ^ 0 * (p + a); rw [pow_zero, one_mul]
  | i + 1, h => by
    obtain ⟨I, h1, h2, h3, h4⟩ := inv_state ha hp i fun j hj => h j (by omega)
    obtain ⟨J, g1, g2, g3, g4⟩ := I.step (h i (by omega))
    rw [state_succ]
    refine ⟨J, ?_, ?_, g3.trans h3, g4.trans h4⟩
    · rw [pow_succ, mul_assoc]; exact (Nat.mul_le_mul_left _ g1).trans h1
    · rw [pow_succ, mul_assoc]; exact h2.trans (Nat.mul_le_mul_left _ g2)

theorem p_sq : p * p < 2 ^ 762 := by decide +kernel
theorem p_gt : 2 ^ 380 < p := by decide +kernel

theorem stops {a : ℕ} (ha : a ≠ 0) (hp : a < p) : ∃ k, StopsAt a k := by
  have : ∃ k, (state a k).v = 0 := by
    by_contra hn
    push Not at hn
    obtain ⟨I, h1, -⟩ := inv_state ha hp 762 fun j _ => hn j
    have hv := Nat.mul_pos I.hu (Nat.pos_of_ne_zero (hn 762))
    have h2 : p * a < 2 ^ 762 := lt_of_le_of_lt (Nat.mul_le_mul_left _ hp.le) p_sq
    generalize p * a = x at h1 h2
    generalize (state a 762).u * (state a 762).v = y at h1 hv
    have := Nat.mul_le_mul_left (2 ^ 762) hv
    omega
  classical
  exact ⟨Nat.find this, Nat.find_spec this, fun i hi => Nat.find_min this hi⟩

theorem StopsAt.bounds {a k : ℕ} (ha : a ≠ 0) (hp : a < p) (h : StopsAt a k) : 381 ≤ k ∧ k ≤ 762 := by
  obtain ⟨I, -, h2, -⟩ := inv_state ha hp k h.2
  have hu : (state a k).u = 1 := by have := I.cop; rwa [h.1, Nat.coprime_zero_right] at this
  rw [hu, h.1, add_zero, mul_one] at h2
  constructor
  · by_contra hk
    have := Nat.pow_le_pow_right (n := 2) (by norm_num) (show k ≤ 380 by omega)
    have := p_gt
    omega
  · obtain ⟨k, rfl⟩ : ∃ j, k = j + 1 := ⟨k - 1, by
      have : k ≠ 0 := by rintro rfl; exact ha h.1
      omega⟩
    obtain ⟨I, h1, -⟩ := inv_state ha hp k fun j hj => h.2 j (by omega)
    have hv := Nat.mul_pos I.hu (Nat.pos_of_ne_zero (h.2 k (by omega)))
    have h3 : p * a < 2 ^ 762 := lt_of_le_of_lt (Nat.mul_le_mul_left _ hp.le) p_sq
    have h4 := Nat.mul_le_mul_left (2 ^ k) hv
    have h5 : 2 ^ k < 2 ^ 762 := by
      generalize p * a = x at h1 h3
      generalize (state a k).u * (state a k).v = y at h1 h4
      omega
    have := (Nat.pow_lt_pow_iff_right (a := 2) (by norm_num)).1 h5
    omega

theorem StopsAt.unique {a k l : ℕ} (h : StopsAt a k) (h' : StopsAt a l) : k = l := by
  rcases lt_trichotomy k l with hl | hl | hl
  · exact absurd h.1 (h'.2 k hl)
  · exact hl
  · exact absurd h'.1 (h.2 l hl)

/-- The sizes on the way. -/
theorem Inv.sizes {t : State} (I : Inv t) (hv : t.v ≠ 0) : t.r < p ∧ t.r + t.s ≤ p := by
  have h1 : t.s ≤ t.u * t.s := Nat.le_mul_of_pos_left _ I.hu
  have h2 : t.r ≤ t.v * t.r := Nat.le_mul_of_pos_left _ (Nat.pos_of_ne_zero hv)
  have h3 := Nat.mul_pos I.hu I.hs
  have := I.sum
  omega

theorem step_r {t : State} (I : Inv t) (hv : t.v ≠ 0) : (step t).s ≤ 2 * p ∧ (step t).r < 2 * p := by
  obtain ⟨h1, h2⟩ := I.sizes hv
  have := I.hs
  unfold Kaliski.step
  split_ifs <;> constructor <;> dsimp only <;> omega

/-- For evaluation. -/
def count : ℕ → ℕ → State → Option ℕ
  | 0, _, _ => none
  | n + 1, i, t => if t.v = 0 then some i else count n (i + 1) (step t)

theorem count_stops {a k : ℕ} : ∀ n i, (∀ j < i, (state a j).v ≠ 0) → count n i (state a i) = some k → StopsAt a k
  | 0, _, _, h => absurd h (by rw [count]; exact fun h => by cases h)
  | n + 1, i, hi, h => by
    rw [count] at h
    split_ifs at h with h0
    · obtain rfl := Option.some.inj h
      exact ⟨h0, hi⟩
    · rw [← state_succ] at h
      refine count_stops n (i + 1) (fun j hj => ?_) h
      rcases Nat.lt_succ_iff_lt_or_eq.1 hj with hj | rfl
      · exact hi j hj
      · exact h0

theorem stops_of_count {a k : ℕ} (h : count 1000 0 ⟨p, a, 1, 0⟩ = some k) : StopsAt a k := count_stops 1000 0 (fun _ h => by omega) h

end Bls.Kaliski

namespace Bls.Fp
open Kaliski

set_option exponentiation.threshold 1000

/-- The integers in the variables. -/
def InvVars.val (t : InvVars) : State := ⟨t.u.val, t.v.val, t.s.val, t.r.val⟩

theorem invStep_val (t : InvVars) (I : Inv t.val) (hv : t.val.v ≠ 0) : (invStep t).val = step t.val := by
  obtain ⟨h1, h2⟩ := I.sizes hv
  have hp := X86.p_lt
  obtain ⟨u, v, s, r⟩ := t
  change r.val < p at h1
  change r.val + s.val ≤ p at h2
  have hul := Fp.val_lt u
  have hvl := Fp.val_lt v
  unfold invStep step InvVars.val
  dsimp only
  simp only [isEven_iff, lt_iff]
  have es : s.mul2.val = 2 * s.val := by rw [mul2_val, Nat.mod_eq_of_lt (by omega)]
  have er : r.mul2.val = 2 * r.val := by rw [mul2_val, Nat.mod_eq_of_lt (by omega)]
  have e1 : (X86.ladd r s).val = r.val + s.val := by rw [X86.ladd_val, Nat.mod_eq_of_lt (by omega)]
  have e2 : (X86.ladd s r).val = s.val + r.val := by rw [X86.ladd_val, Nat.mod_eq_of_lt (by omega)]
  split_ifs with a1 a2 a3
  · simp only [div2_val, es]
  · simp only [div2_val, er]
  · have e3 : (X86.lsub u v).val = u.val - v.val := by rw [X86.lsub_val]; omega
    simp only [div2_val, es, e1, e3]
  · have e3 : (X86.lsub v u).val = v.val - u.val := by rw [X86.lsub_val]; omega
    simp only [div2_val, er, e2, e3]

theorem invLoop_succ (n k : ℕ) (t : InvVars) : invLoop (n + 1) t.u t.v t.s t.r k =
    if t.v.isZero then some (t.r, k) else invLoop n (invStep t).u (invStep t).v (invStep t).s (invStep t).r (k + 1) := by
  rw [invLoop, invStep]
  split_ifs <;> rfl

theorem invStart_val (x : Fp) : (invStart x).val = state x.val 0 := by
  show (⟨_, _, _, _⟩ : State) = ⟨p, x.val, 1, 0⟩
  rw [invStart]
  dsimp only
  have hz : (⟨0, 0, 0, 0, 0, 0⟩ : Fp).val = 0 := zero_val
  rw [ MODULUS_val, one_val, hz]

theorem vars_val {x : Fp} (hx : x.val ≠ 0) (hp : x.val < p) : ∀ i, (∀ j < i, (state x.val j).v ≠ 0) →
    (invStep^[i] (invStart x)).val = state x.val i
  | 0, _ => invStart_val x
  | i + 1, h => by
    have ih := vars_val hx hp i fun j hj => h j (by omega)
    have I := (inv_state hx hp i fun j hj => h j (by omega)).1
    rw [Function.iterate_succ_apply', state_succ, ← ih]
    exact invStep_val _ (by rw [ih]; exact I) (by rw [ih]; exact h i (by omega))

theorem loop_from {x : Fp} (hx : x.val ≠ 0) (hp : x.val < p) {k : ℕ} (hk : StopsAt x.val k) : ∀ n i, i + n = k → ∀ m, n < m →
    invLoop m (invStep^[i] (invStart x)).u (invStep^[i] (invStart x)).v (invStep^[i] (invStart x)).s (invStep^[i] (invStart x)).r i
      = some ((invStep^[k] (invStart x)).r, k)
  | 0, i, e, m, hm => by
    obtain ⟨m, rfl⟩ : ∃ j, m = j + 1 := ⟨m - 1, by omega⟩
    obtain rfl : i = k := by omega
    have h0 : (invStep^[i] (invStart x)).v.isZero = true := by
      rw [Fp.isZero_iff]
      have := vars_val hx hp i hk.2
      exact (congrArg State.v this).trans hk.1
    rw [invLoop_succ, if_pos h0]
  | n + 1, i, e, m, hm => by
    obtain ⟨m, rfl⟩ : ∃ j, m = j + 1 := ⟨m - 1, by omega⟩
    have h0 : ¬ (invStep^[i] (invStart x)).v.isZero = true := by
      rw [Fp.isZero_iff]
      have := vars_val hx hp i fun j hj => hk.2 j (by omega)
      intro h
      exact hk.2 i (by omega) ((congrArg State.v this).symm.trans h)
    have := loop_from hx hp hk n (i + 1) (by omega) m (by omega)
    rw [Function.iterate_succ_apply'] at this
    rw [invLoop_succ, if_neg h0]
    exact this

theorem invRounds_eq {x : Fp} (hx : x.val ≠ 0) (hp : x.val < p) {k : ℕ} (hk : StopsAt x.val k) : invRounds x = some k := by
  have hb := hk.bounds hx hp
  have := loop_from hx hp hk k 0 (by omega) 768 (by omega)
  rw [invRounds, if_neg (by rw [Fp.isZero_iff]; exact hx)]
  have e : invLoop 768 MODULUS x ⟨1, 0, 0, 0, 0, 0⟩ ⟨0, 0, 0, 0, 0, 0⟩ 0 = some ((invStep^[k] (invStart x)).r, k) := this
  rw [e]; rfl

end Bls.Fp
