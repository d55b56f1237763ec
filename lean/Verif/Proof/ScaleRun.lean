import Verif.Model.ScaleRun
import Verif.Spec.ScaleCalls
import Verif.Proof.Scalar
import Mathlib.Data.Nat.Size

/-!
# The calls of `scale` are the binary digits of the scalar
-/

namespace Bls

theorem bits_succ {w n : ℕ} (h : w.size = n + 1) : w.bits = w.testBit 0 :: (w / 2).bits ∧ (w / 2).size = n := by
  have hb : w = Nat.bit (w.testBit 0) (w / 2) := by
    rw [Nat.bit_val, Nat.testBit_zero]
    rcases Nat.mod_two_eq_zero_or_one w with h | h <;> rw [h] <;> simp <;> omega
  have h0 : Nat.bit (w.testBit 0) (w / 2) ≠ 0 := by
    rw [← hb]
    rintro rfl
    rw [Nat.size_zero] at h
    omega
  have h1 := Nat.size_bit h0
  rw [← hb, h] at h1
  refine ⟨?_, by omega⟩
  conv_lhs => rw [hb]
  refine Nat.bits_append_bit _ _ fun hz => ?_
  by_contra hc
  rw [Bool.not_eq_true] at hc
  exact h0 (by rw [hz, hc]; rfl)

theorem callsOf_succ {w n : ℕ} (h : w.size = n + 1) :
    callsOf w = (if w.testBit 0 then [.add, .dbl] else [.dbl]) ++ callsOf (w / 2) := by
  rw [callsOf, (bits_succ h).1, List.flatMap_cons]; rfl

theorem callsOf_zero : callsOf 0 = [] := by rw [callsOf, Nat.zero_bits]; rfl

namespace Jac

variable {F : Type} [Ops F]

theorem scaleRunLoop_eq (s : List UInt64) : ∀ (n i : ℕ) (q a : Jac F) (calls : List PointCall),
    (wordsVal s / 2 ^ i).size = n →
    scaleRunLoop s n i q a calls = (scaleLoop s n i q a, calls ++ callsOf (wordsVal s / 2 ^ i)) := by
  intro n
  induction n with
  | zero =>
    intro i q a calls h
    rw [Nat.size_eq_zero] at h
    rw [h, callsOf_zero, List.append_nil]; rfl
  | succ n ih =>
    intro i q a calls h
    have hd : wordsVal s / 2 ^ i / 2 = wordsVal s / 2 ^ (i + 1) := by
      rw [Nat.div_div_eq_div_mul, ← pow_succ]
    have hs := (bits_succ h).2
    rw [hd] at hs
    have hbit : Scalar.bit s i = (wordsVal s / 2 ^ i).testBit 0 := by
      rw [Scalar.bit_spec, Nat.testBit_div_two_pow, Nat.zero_add]
    rw [scaleRunLoop, scaleLoop, callsOf_succ h, hd, hbit]
    cases (wordsVal s / 2 ^ i).testBit 0 with
    | true =>
      rw [if_pos rfl, if_pos rfl, if_pos rfl]
      dsimp only
      rw [ih _ _ _ _ hs, List.append_assoc, List.append_assoc]; rfl
    | false =>
      rw [if_neg (by decide), if_neg (by decide), if_neg (by decide)]
      dsimp only
      rw [ih _ _ _ _ hs, List.append_assoc]

theorem scaleRun_eq (a : Jac F) (s : List UInt64) : a.scaleRun s = (a.scale s, callsOf (wordsVal s)) := by
  have h := scaleRunLoop_eq s (Scalar.bitLength s) 0 ⟨Ops.zero, Ops.zero, Ops.zero⟩ a [] (by
    rw [pow_zero, Nat.div_one, Scalar.bitLength_spec])
  rw [pow_zero, Nat.div_one] at h
  exact h

end Jac

theorem callsOf_inj : ∀ {m n : ℕ}, callsOf m = callsOf n → m = n := by
  have key : ∀ k : ℕ, ∀ m n : ℕ, m.size = k → callsOf m = callsOf n → m = n := by
    intro k
    induction k with
    | zero =>
      intro m n hm h
      rw [Nat.size_eq_zero] at hm
      subst hm
      by_contra hne
      have hn : n.size ≠ 0 := fun h0 => hne (Nat.size_eq_zero.1 h0).symm
      obtain ⟨j, hj⟩ := Nat.exists_eq_succ_of_ne_zero hn
      rw [callsOf_zero, callsOf_succ hj] at h
      cases hb : n.testBit 0 <;> rw [hb] at h <;> simp at h
    | succ k ih =>
      intro m n hm h
      cases hn : n.size with
      | zero =>
        rw [Nat.size_eq_zero] at hn
        subst hn
        rw [callsOf_zero, callsOf_succ hm] at h
        cases hb : m.testBit 0 <;> rw [hb] at h <;> simp at h
      | succ j =>
        rw [callsOf_succ hm, callsOf_succ hn] at h
        have hb : m.testBit 0 = n.testBit 0 ∧ callsOf (m / 2) = callsOf (n / 2) := by
          cases hm0 : m.testBit 0 <;> cases hn0 : n.testBit 0 <;> rw [hm0, hn0] at h
          · exact ⟨rfl, by simpa using h⟩
          · simp at h
          · simp at h
          · exact ⟨rfl, by simpa using h⟩
        have h2 := ih _ _ (bits_succ hm).2 hb.2
        have h3 := hb.1
        rw [Nat.testBit_zero, Nat.testBit_zero, decide_eq_decide] at h3
        omega
  exact fun {m n} h => key _ m n rfl h

end Bls
