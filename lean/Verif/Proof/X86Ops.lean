import Verif.Model.X86Ops
import Verif.Proof.AsmSmall
import Verif.Proof.AsmMul
import Verif.Proof.AsmMulEx

/-! Values of the x86-64 operations. -/

namespace Bls.X86

set_option exponentiation.threshold 1000

theorem readFp_callState_x (x y : Fp) : readFp (callState x y).mem (callState x y).rsi = x := by
  cases x; simp [callState, entry, readFp, writeFp, memSet]

theorem readFp_callState_y (x y : Fp) : readFp (callState x y).mem (callState x y).rdx = y := by
  cases y; simp [callState, entry, readFp, writeFp, memSet]

theorem readFp_writeFp (m : UInt64 → UInt64) (a : UInt64) (z : Fp) : readFp (writeFp m a z) a = z := by
  cases z; simp [readFp, writeFp, memSet]

theorem call_eq {code : List Instr} {f : Nat → Nat → Nat} (h : Computes code f) (x y : Fp) :
    call code x y = some (result code x y) ∧ (result code x y).val = f x.val y.val := by
  obtain ⟨s', hr, z, hz, hret⟩ := h (callState x y) rfl
  rw [readFp_callState_x, readFp_callState_y] at hz
  have : call code x y = some z := by
    unfold call
    rw [hr, Option.map_some, hret.1]
    exact congrArg some (readFp_writeFp _ _ _)
  unfold result
  rw [this]
  exact ⟨rfl, hz⟩

/-- A routine returns the same words from any entry state. -/
theorem returns_of_computes {code : List Instr} {f : Nat → Nat → Nat} (h : Computes code f) (s : Cpu)
    (hs : s.stk = []) : ∃ s', run code s = some s' ∧
      Returns s s' (result code (readFp s.mem s.rsi) (readFp s.mem s.rdx)) := by
  obtain ⟨s', hr, z, hz, hret⟩ := h s hs
  have : z = result code (readFp s.mem s.rsi) (readFp s.mem s.rdx) := by
    apply Fp.val_inj
    rw [hz, (call_eq h _ _).2]
  subst this
  exact ⟨s', hr, hret⟩

theorem add_val (x y : Fp) : (add x y).val = csub ((x.val + y.val) % 2 ^ 384) := (call_eq add_wp x y).2
theorem ladd_val (x y : Fp) : (ladd x y).val = (x.val + y.val) % 2 ^ 384 := (call_eq ladd_wp x y).2
theorem dbl_val (x : Fp) : (dbl x).val = csub ((x.val + x.val) % 2 ^ 384) := (call_eq double_wp x x).2
theorem ldbl_val (x : Fp) : (ldbl x).val = (x.val + x.val) % 2 ^ 384 := (call_eq ldouble_wp x x).2
theorem sub_val (x y : Fp) : (sub x y).val =
    if y.val ≤ x.val then x.val - y.val else (x.val + 2 ^ 384 - y.val + p) % 2 ^ 384 :=
  (call_eq subtract_wp x y).2
theorem lsub_val (x y : Fp) : (lsub x y).val = (x.val + 2 ^ 384 - y.val) % 2 ^ 384 :=
  (call_eq lsubtract_wp x y).2
theorem neg_val (x : Fp) : (neg x).val = if x.val = 0 then 0 else (p + 2 ^ 384 - x.val) % 2 ^ 384 := by
  unfold neg
  by_cases h : x.isZero = true
  · rw [if_pos h]; rw [Fp.isZero_iff] at h; simp [h]
  · rw [if_neg h]; rw [Fp.isZero_iff] at h; rw [if_neg h]; exact (call_eq negate_wp x x).2
theorem mul_val (adx : Bool) (x y : Fp) : (mul adx x y).val = redc (x.val * y.val) := by
  unfold mul
  cases adx
  · exact (call_eq multiply_wp x y).2
  · exact (call_eq mul_ex_wp x y).2
theorem sqr_val (x : Fp) : (sqr x).val = redc (x.val * x.val) := (call_eq multiply_wp x x).2

end Bls.X86
