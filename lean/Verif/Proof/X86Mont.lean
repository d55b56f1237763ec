import Verif.Model.X86Call
import Verif.Proof.X86
import Mathlib.Data.Nat.ModEq

/-! The end of Montgomery multiplication, and the shape of a correct return. -/

namespace Bls.X86

set_option exponentiation.threshold 1000

/-- The routine returned: the destination words hold `z`, no other memory changed, callee-saved registers are
restored, and the stack pointer is back. -/
def Returns (s s' : Cpu) (z : Fp) : Prop :=
  s'.mem = writeFp s.mem s.rdi z ∧ s'.rbx = s.rbx ∧ s'.rbp = s.rbp ∧ s'.r12 = s.r12 ∧
    s'.r13 = s.r13 ∧ s'.r14 = s.r14 ∧ s'.r15 = s.r15 ∧ s'.stk = []

/-- The code, from any entry state with an empty frame, terminates without undefined behaviour and returns
the words of `f x y`, where `x` and `y` are the integers stored at the two source addresses at entry. -/
def Computes (code : List Instr) (f : Nat → Nat → Nat) : Prop :=
  ∀ s : Cpu, s.stk = [] → wp code (fun s' => ∃ z : Fp,
    z.val = f (readFp s.mem s.rsi).val (readFp s.mem s.rdx).val ∧ Returns s s' z) s

/-- `-p⁻¹ mod 2^384`. -/
def NP : Nat := 0xceb06106feaafc9468b316fee268cf5819ecca0e8eb2db4c16ef2ef0c8e30b48286adb92d9d113e889f3fffcfffcfffd

/-- One conditional subtraction. -/
def csub (t : Nat) : Nat := if t < p then t else t - p

/-- The result of Montgomery reduction in six words with one conditional subtraction, for any input. -/
def redc (t : Nat) : Nat := csub ((t + t * NP % 2 ^ 384 * p) / 2 ^ 384 % 2 ^ 384)

theorem _root_.Bls.Fp.val_flat (x : Fp) : x.val = x.d0.toNat + 2 ^ 64 * x.d1.toNat +
    2 ^ 128 * x.d2.toNat + 2 ^ 192 * x.d3.toNat + 2 ^ 256 * x.d4.toNat + 2 ^ 320 * x.d5.toNat := by
  unfold Fp.val; ring

theorem readFp_val (m : UInt64 → UInt64) (a : UInt64) : (readFp m a).val =
    (m (a + 0)).toNat + 2 ^ 64 * (m (a + 8)).toNat + 2 ^ 128 * (m (a + 0x10)).toNat +
      2 ^ 192 * (m (a + 0x18)).toNat + 2 ^ 256 * (m (a + 0x20)).toNat +
      2 ^ 320 * (m (a + 0x28)).toNat := Fp.val_flat _

theorem modulus_sum : (0xb9feffffffffaaab : UInt64).toNat + 2 ^ 64 * (0x1eabfffeb153ffff : UInt64).toNat +
    2 ^ 128 * (0x6730d2a0f6b0f624 : UInt64).toNat + 2 ^ 192 * (0x64774b84f38512bf : UInt64).toNat +
    2 ^ 256 * (0x4b1ba7b6434bacd7 : UInt64).toNat + 2 ^ 320 * (0x1a0111ea397fe69a : UInt64).toNat = p := by
  decide +kernel

theorem hN0 : ((0x89f3fffcfffcfffd : UInt64).toNat * (0xb9feffffffffaaab : UInt64).toNat + 1) % 2 ^ 64 = 0 := by
  decide +kernel

theorem hP50 : (0x1a0111ea397fe69a : UInt64).toNat ≤ 2 ^ 61 := by decide +kernel

theorem mont_quot {t M k : Nat} (key : 2 ^ 384 * k = t + M * p) (hM : M < 2 ^ 384) :
    t * NP % 2 ^ 384 = M := by
  obtain ⟨j, hj⟩ : 2 ^ 384 ∣ NP * p + 1 := by
    rw [Nat.dvd_iff_mod_eq_zero]; decide +kernel
  have h : t * NP + 2 ^ 384 * (M * j) = M + 2 ^ 384 * (k * NP) := by
    linear_combination NP * key.symm + M * hj.symm
  have h2 := congrArg (· % 2 ^ 384) h
  simp only [Nat.add_mul_mod_self_left] at h2
  rw [h2, Nat.mod_eq_of_lt hM]

theorem p_lt : p < 2 ^ 381 := by decide +kernel

theorem mont_end {XY M P T c d D : Nat} (hP : P = p)
    (key : 2 ^ 384 * T + 2 ^ 768 * c = XY + M * P) (hM : M < 2 ^ 384)
    (hT : T < 2 ^ 384) (hD : D < 2 ^ 384) (S : D + P = T + 2 ^ 384 * d) (hd : d ≤ 1) :
    (bif d == 1 then T else D) = redc XY := by
  subst hP
  have hk : 2 ^ 384 * (T + 2 ^ 384 * c) = XY + M * p := by rw [← key]; ring
  have hq := mont_quot hk hM
  have hp := p_lt
  unfold redc
  rw [hq, ← hk, Nat.mul_div_cancel_left _ (by norm_num), Nat.add_mul_mod_self_left,
    Nat.mod_eq_of_lt hT, csub]
  rcases (by omega : d = 0 ∨ d = 1) with rfl | rfl
  · rw [if_neg (by omega)]
    simp; omega
  · rw [if_pos (by omega)]
    simp

/-- In the range the callers use, the reduction is exact. -/
theorem redc_spec {t : Nat} (h : t < 2 ^ 384 * p) : redc t < p ∧ 2 ^ 384 * redc t % p = t % p := by
  have hp := p_lt
  have hp0 : 0 < p := by decide +kernel
  have hd : 2 ^ 384 ∣ t + t * NP % 2 ^ 384 * p := by
    have h1 : 2 ^ 384 ∣ NP * p + 1 := by
      rw [Nat.dvd_iff_mod_eq_zero]; decide +kernel
    have h2 : t + t * NP % 2 ^ 384 * p ≡ t * (NP * p + 1) [MOD 2 ^ 384] := by
      have h3 : t * NP % 2 ^ 384 ≡ t * NP [MOD 2 ^ 384] := Nat.mod_modEq _ _
      have h4 := (h3.mul_right p).add_left t
      have h5 : t + t * NP * p = t * (NP * p + 1) := by ring
      rwa [h5] at h4
    exact (Nat.modEq_zero_iff_dvd.1 (h2.trans (Nat.modEq_zero_iff_dvd.2 (h1.mul_left t))))
  obtain ⟨k, hk⟩ := hd
  have hm : t * NP % 2 ^ 384 < 2 ^ 384 := Nat.mod_lt _ (by norm_num)
  have hmp : t * NP % 2 ^ 384 * p ≤ 2 ^ 384 * p := Nat.mul_le_mul_right _ hm.le
  have hk2 : k < 2 * p := by
    have : 2 ^ 384 * k < 2 ^ 384 * (2 * p) := by omega
    exact Nat.lt_of_mul_lt_mul_left this
  have e : redc t = csub k := by
    unfold redc
    rw [hk, Nat.mul_div_cancel_left _ (by norm_num), Nat.mod_eq_of_lt (by omega)]
  rw [e]
  have hc : csub k < p ∧ csub k % p = k % p := by
    unfold csub
    split_ifs with h6
    · exact ⟨h6, rfl⟩
    · exact ⟨by omega, (Nat.mod_eq_sub_mod (by omega)).symm⟩
  refine ⟨hc.1, ?_⟩
  rw [Nat.mul_mod, hc.2, ← Nat.mul_mod, ← hk, Nat.add_mul_mod_self_right]

end Bls.X86
