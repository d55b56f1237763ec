import Verif.Proof.X86Mont

/-! Symbolic execution of the short routines of `src/arithmetic.s`. Generated by
`tools/gen_asm_small.py`; every step is checked by Lean. -/

namespace Bls.X86

set_option exponentiation.threshold 1000
set_option linter.unusedVariables false
set_option linter.unusedSimpArgs false

/-- `_add`: the sum, reduced once. -/
theorem add_wp : Computes Asm.add (fun x y => csub ((x + y) % 2 ^ 384)) := by
  intro s hs
  obtain ⟨rax, rbx, rcx, rdx, rsi, rdi, rbp, r8, r9, r10, r11, r12, r13, r14, r15, cf, of, stk, m⟩ := s
  dsimp only at hs ⊢
  subst hs
  unfold Asm.add
  refine wp_push ?_; dsimp only [Cpu.get]
  refine wp_push ?_; dsimp only [Cpu.get]
  refine wp_push ?_; dsimp only [Cpu.get]
  refine wp_push ?_; dsimp only [Cpu.get]
  refine wp_push ?_; dsimp only [Cpu.get]
  refine wp_mov rfl ?_; dsimp only [Cpu.set, Cpu.get]
  refine wp_mov rfl ?_; dsimp only [Cpu.set, Cpu.get]
  refine wp_mov rfl ?_; dsimp only [Cpu.set, Cpu.get]
  refine wp_mov rfl ?_; dsimp only [Cpu.set, Cpu.get]
  refine wp_mov rfl ?_; dsimp only [Cpu.set, Cpu.get]
  refine wp_mov rfl ?_; dsimp only [Cpu.set, Cpu.get]
  refine wp_add rfl (fun v1 c1 o1 h1 => ?_); dsimp only [Cpu.set, Cpu.get] at h1 ⊢
  refine wp_adc rfl (fun v2 c2 o2 h2 => ?_); dsimp only [Cpu.set, Cpu.get] at h2 ⊢
  refine wp_adc rfl (fun v3 c3 o3 h3 => ?_); dsimp only [Cpu.set, Cpu.get] at h3 ⊢
  refine wp_adc rfl (fun v4 c4 o4 h4 => ?_); dsimp only [Cpu.set, Cpu.get] at h4 ⊢
  refine wp_adc rfl (fun v5 c5 o5 h5 => ?_); dsimp only [Cpu.set, Cpu.get] at h5 ⊢
  refine wp_adc rfl (fun v6 c6 o6 h6 => ?_); dsimp only [Cpu.set, Cpu.get] at h6 ⊢
  refine wp_mov rfl ?_; dsimp only [Cpu.set, Cpu.get]
  refine wp_mov rfl ?_; dsimp only [Cpu.set, Cpu.get]
  refine wp_mov rfl ?_; dsimp only [Cpu.set, Cpu.get]
  refine wp_mov rfl ?_; dsimp only [Cpu.set, Cpu.get]
  refine wp_mov rfl ?_; dsimp only [Cpu.set, Cpu.get]
  refine wp_mov rfl ?_; dsimp only [Cpu.set, Cpu.get]
  refine wp_mov rfl ?_; dsimp only [Cpu.set, Cpu.get]
  refine wp_sub rfl (fun v7 c7 o7 h7 => ?_); dsimp only [Cpu.set, Cpu.get] at h7 ⊢
  refine wp_mov rfl ?_; dsimp only [Cpu.set, Cpu.get]
  refine wp_sbb rfl (fun v8 c8 o8 h8 => ?_); dsimp only [Cpu.set, Cpu.get] at h8 ⊢
  refine wp_mov rfl ?_; dsimp only [Cpu.set, Cpu.get]
  refine wp_sbb rfl (fun v9 c9 o9 h9 => ?_); dsimp only [Cpu.set, Cpu.get] at h9 ⊢
  refine wp_mov rfl ?_; dsimp only [Cpu.set, Cpu.get]
  refine wp_sbb rfl (fun v10 c10 o10 h10 => ?_); dsimp only [Cpu.set, Cpu.get] at h10 ⊢
  refine wp_mov rfl ?_; dsimp only [Cpu.set, Cpu.get]
  refine wp_sbb rfl (fun v11 c11 o11 h11 => ?_); dsimp only [Cpu.set, Cpu.get] at h11 ⊢
  refine wp_mov rfl ?_; dsimp only [Cpu.set, Cpu.get]
  refine wp_sbb rfl (fun v12 c12 o12 h12 => ?_); dsimp only [Cpu.set, Cpu.get] at h12 ⊢
  refine wp_cmovae ?_; dsimp only [Cpu.set, Cpu.get]
  refine wp_cmovae ?_; dsimp only [Cpu.set, Cpu.get]
  refine wp_cmovae ?_; dsimp only [Cpu.set, Cpu.get]
  refine wp_cmovae ?_; dsimp only [Cpu.set, Cpu.get]
  refine wp_cmovae ?_; dsimp only [Cpu.set, Cpu.get]
  refine wp_cmovae ?_; dsimp only [Cpu.set, Cpu.get]
  refine wp_store ?_; dsimp only [Cpu.get]
  refine wp_store ?_; dsimp only [Cpu.get]
  refine wp_store ?_; dsimp only [Cpu.get]
  refine wp_store ?_; dsimp only [Cpu.get]
  refine wp_store ?_; dsimp only [Cpu.get]
  refine wp_store ?_; dsimp only [Cpu.get]
  refine wp_pop rfl ?_; dsimp only [Cpu.set]
  refine wp_pop rfl ?_; dsimp only [Cpu.set]
  refine wp_pop rfl ?_; dsimp only [Cpu.set]
  refine wp_pop rfl ?_; dsimp only [Cpu.set]
  refine wp_pop rfl ?_; dsimp only [Cpu.set]
  refine wp_ret rfl ?_
  have k1 : v1.toNat + 2 ^ 64 * v2.toNat + 2 ^ 128 * v3.toNat + 2 ^ 192 * v4.toNat + 2 ^ 256 * v5.toNat + 2 ^ 320 * v6.toNat + 2 ^ 384 * c6.toNat = ((m (rsi + 0)).toNat + 2 ^ 64 * (m (rsi + 8)).toNat + 2 ^ 128 * (m (rsi + 0x10)).toNat + 2 ^ 192 * (m (rsi + 0x18)).toNat + 2 ^ 256 * (m (rsi + 0x20)).toNat + 2 ^ 320 * (m (rsi + 0x28)).toNat) + ((m (rdx + 0)).toNat + 2 ^ 64 * (m (rdx + 8)).toNat + 2 ^ 128 * (m (rdx + 0x10)).toNat + 2 ^ 192 * (m (rdx + 0x18)).toNat + 2 ^ 256 * (m (rdx + 0x20)).toNat + 2 ^ 320 * (m (rdx + 0x28)).toNat) := by
    linear_combination h1 + 2 ^ 64 * h2 + 2 ^ 128 * h3 + 2 ^ 192 * h4 + 2 ^ 256 * h5 + 2 ^ 320 * h6
  have k2 : v7.toNat + 2 ^ 64 * v8.toNat + 2 ^ 128 * v9.toNat + 2 ^ 192 * v10.toNat + 2 ^ 256 * v11.toNat + 2 ^ 320 * v12.toNat + ((0xb9feffffffffaaab : UInt64).toNat + 2 ^ 64 * (0x1eabfffeb153ffff : UInt64).toNat + 2 ^ 128 * (0x6730d2a0f6b0f624 : UInt64).toNat + 2 ^ 192 * (0x64774b84f38512bf : UInt64).toNat + 2 ^ 256 * (0x4b1ba7b6434bacd7 : UInt64).toNat + 2 ^ 320 * (0x1a0111ea397fe69a : UInt64).toNat) = v1.toNat + 2 ^ 64 * v2.toNat + 2 ^ 128 * v3.toNat + 2 ^ 192 * v4.toNat + 2 ^ 256 * v5.toNat + 2 ^ 320 * v6.toNat + 2 ^ 384 * c12.toNat := by
    linear_combination h7 + 2 ^ 64 * h8 + 2 ^ 128 * h9 + 2 ^ 192 * h10 + 2 ^ 256 * h11 + 2 ^ 320 * h12
  rw [modulus_sum] at k2
  have b1 := u6_lt v1 v2 v3 v4 v5 v6
  have b2 := u6_lt v7 v8 v9 v10 v11 v12
  have hp := p_lt
  refine wp_nil ⟨⟨bif c12 then v1 else v7, bif c12 then v2 else v8, bif c12 then v3 else v9, bif c12 then v4 else v10, bif c12 then v5 else v11, bif c12 then v6 else v12⟩, ?_, rfl, rfl, rfl, rfl, rfl, rfl, rfl, rfl⟩
  rw [Fp.val_flat]
  simp only [readFp_val]
  rw [← k1, Nat.add_mul_mod_self_left, Nat.mod_eq_of_lt b1, csub]
  cases c12
  · simp only [cond_false, Bool.toNat_false] at k2 ⊢
    rw [if_neg (by omega)]; omega
  · simp only [cond_true, Bool.toNat_true] at k2 ⊢
    rw [if_pos (by omega)]

/-- `_double`: the double, reduced once. -/
theorem double_wp : Computes Asm.double (fun x y => csub ((x + x) % 2 ^ 384)) := by
  intro s hs
  obtain ⟨rax, rbx, rcx, rdx, rsi, rdi, rbp, r8, r9, r10, r11, r12, r13, r14, r15, cf, of, stk, m⟩ := s
  dsimp only at hs ⊢
  subst hs
  unfold Asm.double
  refine wp_push ?_; dsimp only [Cpu.get]
  refine wp_push ?_; dsimp only [Cpu.get]
  refine wp_push ?_; dsimp only [Cpu.get]
  refine wp_push ?_; dsimp only [Cpu.get]
  refine wp_push ?_; dsimp only [Cpu.get]
  refine wp_mov rfl ?_; dsimp only [Cpu.set, Cpu.get]
  refine wp_mov rfl ?_; dsimp only [Cpu.set, Cpu.get]
  refine wp_mov rfl ?_; dsimp only [Cpu.set, Cpu.get]
  refine wp_mov rfl ?_; dsimp only [Cpu.set, Cpu.get]
  refine wp_mov rfl ?_; dsimp only [Cpu.set, Cpu.get]
  refine wp_mov rfl ?_; dsimp only [Cpu.set, Cpu.get]
  refine wp_add rfl (fun v1 c1 o1 h1 => ?_); dsimp only [Cpu.set, Cpu.get] at h1 ⊢
  refine wp_adc rfl (fun v2 c2 o2 h2 => ?_); dsimp only [Cpu.set, Cpu.get] at h2 ⊢
  refine wp_adc rfl (fun v3 c3 o3 h3 => ?_); dsimp only [Cpu.set, Cpu.get] at h3 ⊢
  refine wp_adc rfl (fun v4 c4 o4 h4 => ?_); dsimp only [Cpu.set, Cpu.get] at h4 ⊢
  refine wp_adc rfl (fun v5 c5 o5 h5 => ?_); dsimp only [Cpu.set, Cpu.get] at h5 ⊢
  refine wp_adc rfl (fun v6 c6 o6 h6 => ?_); dsimp only [Cpu.set, Cpu.get] at h6 ⊢
  refine wp_mov rfl ?_; dsimp only [Cpu.set, Cpu.get]
  refine wp_mov rfl ?_; dsimp only [Cpu.set, Cpu.get]
  refine wp_mov rfl ?_; dsimp only [Cpu.set, Cpu.get]
  refine wp_mov rfl ?_; dsimp only [Cpu.set, Cpu.get]
  refine wp_mov rfl ?_; dsimp only [Cpu.set, Cpu.get]
  refine wp_mov rfl ?_; dsimp only [Cpu.set, Cpu.get]
  refine wp_mov rfl ?_; dsimp only [Cpu.set, Cpu.get]
  refine wp_sub rfl (fun v7 c7 o7 h7 => ?_); dsimp only [Cpu.set, Cpu.get] at h7 ⊢
  refine wp_mov rfl ?_; dsimp only [Cpu.set, Cpu.get]
  refine wp_sbb rfl (fun v8 c8 o8 h8 => ?_); dsimp only [Cpu.set, Cpu.get] at h8 ⊢
  refine wp_mov rfl ?_; dsimp only [Cpu.set, Cpu.get]
  refine wp_sbb rfl (fun v9 c9 o9 h9 => ?_); dsimp only [Cpu.set, Cpu.get] at h9 ⊢
  refine wp_mov rfl ?_; dsimp only [Cpu.set, Cpu.get]
  refine wp_sbb rfl (fun v10 c10 o10 h10 => ?_); dsimp only [Cpu.set, Cpu.get] at h10 ⊢
  refine wp_mov rfl ?_; dsimp only [Cpu.set, Cpu.get]
  refine wp_sbb rfl (fun v11 c11 o11 h11 => ?_); dsimp only [Cpu.set, Cpu.get] at h11 ⊢
  refine wp_mov rfl ?_; dsimp only [Cpu.set, Cpu.get]
  refine wp_sbb rfl (fun v12 c12 o12 h12 => ?_); dsimp only [Cpu.set, Cpu.get] at h12 ⊢
  refine wp_cmovae ?_; dsimp only [Cpu.set, Cpu.get]
  refine wp_cmovae ?_; dsimp only [Cpu.set, Cpu.get]
  refine wp_cmovae ?_; dsimp only [Cpu.set, Cpu.get]
  refine wp_cmovae ?_; dsimp only [Cpu.set, Cpu.get]
  refine wp_cmovae ?_; dsimp only [Cpu.set, Cpu.get]
  refine wp_cmovae ?_; dsimp only [Cpu.set, Cpu.get]
  refine wp_store ?_; dsimp only [Cpu.get]
  refine wp_store ?_; dsimp only [Cpu.get]
  refine wp_store ?_; dsimp only [Cpu.get]
  refine wp_store ?_; dsimp only [Cpu.get]
  refine wp_store ?_; dsimp only [Cpu.get]
  refine wp_store ?_; dsimp only [Cpu.get]
  refine wp_pop rfl ?_; dsimp only [Cpu.set]
  refine wp_pop rfl ?_; dsimp only [Cpu.set]
  refine wp_pop rfl ?_; dsimp only [Cpu.set]
  refine wp_pop rfl ?_; dsimp only [Cpu.set]
  refine wp_pop rfl ?_; dsimp only [Cpu.set]
  refine wp_ret rfl ?_
  have k1 : v1.toNat + 2 ^ 64 * v2.toNat + 2 ^ 128 * v3.toNat + 2 ^ 192 * v4.toNat + 2 ^ 256 * v5.toNat + 2 ^ 320 * v6.toNat + 2 ^ 384 * c6.toNat = ((m (rsi + 0)).toNat + 2 ^ 64 * (m (rsi + 8)).toNat + 2 ^ 128 * (m (rsi + 0x10)).toNat + 2 ^ 192 * (m (rsi + 0x18)).toNat + 2 ^ 256 * (m (rsi + 0x20)).toNat + 2 ^ 320 * (m (rsi + 0x28)).toNat) + ((m (rsi + 0)).toNat + 2 ^ 64 * (m (rsi + 8)).toNat + 2 ^ 128 * (m (rsi + 0x10)).toNat + 2 ^ 192 * (m (rsi + 0x18)).toNat + 2 ^ 256 * (m (rsi + 0x20)).toNat + 2 ^ 320 * (m (rsi + 0x28)).toNat) := by
    linear_combination h1 + 2 ^ 64 * h2 + 2 ^ 128 * h3 + 2 ^ 192 * h4 + 2 ^ 256 * h5 + 2 ^ 320 * h6
  have k2 : v7.toNat + 2 ^ 64 * v8.toNat + 2 ^ 128 * v9.toNat + 2 ^ 192 * v10.toNat + 2 ^ 256 * v11.toNat + 2 ^ 320 * v12.toNat + ((0xb9feffffffffaaab : UInt64).toNat + 2 ^ 64 * (0x1eabfffeb153ffff : UInt64).toNat + 2 ^ 128 * (0x6730d2a0f6b0f624 : UInt64).toNat + 2 ^ 192 * (0x64774b84f38512bf : UInt64).toNat + 2 ^ 256 * (0x4b1ba7b6434bacd7 : UInt64).toNat + 2 ^ 320 * (0x1a0111ea397fe69a : UInt64).toNat) = v1.toNat + 2 ^ 64 * v2.toNat + 2 ^ 128 * v3.toNat + 2 ^ 192 * v4.toNat + 2 ^ 256 * v5.toNat + 2 ^ 320 * v6.toNat + 2 ^ 384 * c12.toNat := by
    linear_combination h7 + 2 ^ 64 * h8 + 2 ^ 128 * h9 + 2 ^ 192 * h10 + 2 ^ 256 * h11 + 2 ^ 320 * h12
  rw [modulus_sum] at k2
  have b1 := u6_lt v1 v2 v3 v4 v5 v6
  have b2 := u6_lt v7 v8 v9 v10 v11 v12
  have hp := p_lt
  refine wp_nil ⟨⟨bif c12 then v1 else v7, bif c12 then v2 else v8, bif c12 then v3 else v9, bif c12 then v4 else v10, bif c12 then v5 else v11, bif c12 then v6 else v12⟩, ?_, rfl, rfl, rfl, rfl, rfl, rfl, rfl, rfl⟩
  rw [Fp.val_flat]
  simp only [readFp_val]
  rw [← k1, Nat.add_mul_mod_self_left, Nat.mod_eq_of_lt b1, csub]
  cases c12
  · simp only [cond_false, Bool.toNat_false] at k2 ⊢
    rw [if_neg (by omega)]; omega
  · simp only [cond_true, Bool.toNat_true] at k2 ⊢
    rw [if_pos (by omega)]

/-- `_ladd`: the sum without reduction. -/
theorem ladd_wp : Computes Asm.ladd (fun x y => (x + y) % 2 ^ 384) := by
  intro s hs
  obtain ⟨rax, rbx, rcx, rdx, rsi, rdi, rbp, r8, r9, r10, r11, r12, r13, r14, r15, cf, of, stk, m⟩ := s
  dsimp only at hs ⊢
  subst hs
  unfold Asm.ladd
  refine wp_mov rfl ?_; dsimp only [Cpu.set, Cpu.get]
  refine wp_mov rfl ?_; dsimp only [Cpu.set, Cpu.get]
  refine wp_mov rfl ?_; dsimp only [Cpu.set, Cpu.get]
  refine wp_mov rfl ?_; dsimp only [Cpu.set, Cpu.get]
  refine wp_mov rfl ?_; dsimp only [Cpu.set, Cpu.get]
  refine wp_mov rfl ?_; dsimp only [Cpu.set, Cpu.get]
  refine wp_add rfl (fun v1 c1 o1 h1 => ?_); dsimp only [Cpu.set, Cpu.get] at h1 ⊢
  refine wp_adc rfl (fun v2 c2 o2 h2 => ?_); dsimp only [Cpu.set, Cpu.get] at h2 ⊢
  refine wp_adc rfl (fun v3 c3 o3 h3 => ?_); dsimp only [Cpu.set, Cpu.get] at h3 ⊢
  refine wp_adc rfl (fun v4 c4 o4 h4 => ?_); dsimp only [Cpu.set, Cpu.get] at h4 ⊢
  refine wp_adc rfl (fun v5 c5 o5 h5 => ?_); dsimp only [Cpu.set, Cpu.get] at h5 ⊢
  refine wp_adc rfl (fun v6 c6 o6 h6 => ?_); dsimp only [Cpu.set, Cpu.get] at h6 ⊢
  refine wp_store ?_; dsimp only [Cpu.get]
  refine wp_store ?_; dsimp only [Cpu.get]
  refine wp_store ?_; dsimp only [Cpu.get]
  refine wp_store ?_; dsimp only [Cpu.get]
  refine wp_store ?_; dsimp only [Cpu.get]
  refine wp_store ?_; dsimp only [Cpu.get]
  refine wp_ret rfl ?_
  have k1 : v1.toNat + 2 ^ 64 * v2.toNat + 2 ^ 128 * v3.toNat + 2 ^ 192 * v4.toNat + 2 ^ 256 * v5.toNat + 2 ^ 320 * v6.toNat + 2 ^ 384 * c6.toNat = ((m (rsi + 0)).toNat + 2 ^ 64 * (m (rsi + 8)).toNat + 2 ^ 128 * (m (rsi + 0x10)).toNat + 2 ^ 192 * (m (rsi + 0x18)).toNat + 2 ^ 256 * (m (rsi + 0x20)).toNat + 2 ^ 320 * (m (rsi + 0x28)).toNat) + ((m (rdx + 0)).toNat + 2 ^ 64 * (m (rdx + 8)).toNat + 2 ^ 128 * (m (rdx + 0x10)).toNat + 2 ^ 192 * (m (rdx + 0x18)).toNat + 2 ^ 256 * (m (rdx + 0x20)).toNat + 2 ^ 320 * (m (rdx + 0x28)).toNat) := by
    linear_combination h1 + 2 ^ 64 * h2 + 2 ^ 128 * h3 + 2 ^ 192 * h4 + 2 ^ 256 * h5 + 2 ^ 320 * h6
  have b1 := u6_lt v1 v2 v3 v4 v5 v6
  refine wp_nil ⟨⟨v1, v2, v3, v4, v5, v6⟩, ?_, rfl, rfl, rfl, rfl, rfl, rfl, rfl, rfl⟩
  rw [Fp.val_flat]
  simp only [readFp_val]
  rw [← k1, Nat.add_mul_mod_self_left, Nat.mod_eq_of_lt b1]

/-- `_ldouble`: the double without reduction. -/
theorem ldouble_wp : Computes Asm.ldouble (fun x y => (x + x) % 2 ^ 384) := by
  intro s hs
  obtain ⟨rax, rbx, rcx, rdx, rsi, rdi, rbp, r8, r9, r10, r11, r12, r13, r14, r15, cf, of, stk, m⟩ := s
  dsimp only at hs ⊢
  subst hs
  unfold Asm.ldouble
  refine wp_mov rfl ?_; dsimp only [Cpu.set, Cpu.get]
  refine wp_mov rfl ?_; dsimp only [Cpu.set, Cpu.get]
  refine wp_mov rfl ?_; dsimp only [Cpu.set, Cpu.get]
  refine wp_mov rfl ?_; dsimp only [Cpu.set, Cpu.get]
  refine wp_mov rfl ?_; dsimp only [Cpu.set, Cpu.get]
  refine wp_mov rfl ?_; dsimp only [Cpu.set, Cpu.get]
  refine wp_add rfl (fun v1 c1 o1 h1 => ?_); dsimp only [Cpu.set, Cpu.get] at h1 ⊢
  refine wp_adc rfl (fun v2 c2 o2 h2 => ?_); dsimp only [Cpu.set, Cpu.get] at h2 ⊢
  refine wp_adc rfl (fun v3 c3 o3 h3 => ?_); dsimp only [Cpu.set, Cpu.get] at h3 ⊢
  refine wp_adc rfl (fun v4 c4 o4 h4 => ?_); dsimp only [Cpu.set, Cpu.get] at h4 ⊢
  refine wp_adc rfl (fun v5 c5 o5 h5 => ?_); dsimp only [Cpu.set, Cpu.get] at h5 ⊢
  refine wp_adc rfl (fun v6 c6 o6 h6 => ?_); dsimp only [Cpu.set, Cpu.get] at h6 ⊢
  refine wp_store ?_; dsimp only [Cpu.get]
  refine wp_store ?_; dsimp only [Cpu.get]
  refine wp_store ?_; dsimp only [Cpu.get]
  refine wp_store ?_; dsimp only [Cpu.get]
  refine wp_store ?_; dsimp only [Cpu.get]
  refine wp_store ?_; dsimp only [Cpu.get]
  refine wp_ret rfl ?_
  have k1 : v1.toNat + 2 ^ 64 * v2.toNat + 2 ^ 128 * v3.toNat + 2 ^ 192 * v4.toNat + 2 ^ 256 * v5.toNat + 2 ^ 320 * v6.toNat + 2 ^ 384 * c6.toNat = ((m (rsi + 0)).toNat + 2 ^ 64 * (m (rsi + 8)).toNat + 2 ^ 128 * (m (rsi + 0x10)).toNat + 2 ^ 192 * (m (rsi + 0x18)).toNat + 2 ^ 256 * (m (rsi + 0x20)).toNat + 2 ^ 320 * (m (rsi + 0x28)).toNat) + ((m (rsi + 0)).toNat + 2 ^ 64 * (m (rsi + 8)).toNat + 2 ^ 128 * (m (rsi + 0x10)).toNat + 2 ^ 192 * (m (rsi + 0x18)).toNat + 2 ^ 256 * (m (rsi + 0x20)).toNat + 2 ^ 320 * (m (rsi + 0x28)).toNat) := by
    linear_combination h1 + 2 ^ 64 * h2 + 2 ^ 128 * h3 + 2 ^ 192 * h4 + 2 ^ 256 * h5 + 2 ^ 320 * h6
  have b1 := u6_lt v1 v2 v3 v4 v5 v6
  refine wp_nil ⟨⟨v1, v2, v3, v4, v5, v6⟩, ?_, rfl, rfl, rfl, rfl, rfl, rfl, rfl, rfl⟩
  rw [Fp.val_flat]
  simp only [readFp_val]
  rw [← k1, Nat.add_mul_mod_self_left, Nat.mod_eq_of_lt b1]

/-- `_subtract`: the difference, plus the modulus on a borrow. -/
theorem subtract_wp : Computes Asm.subtract (fun x y => if y ≤ x then x - y else (x + 2 ^ 384 - y + p) % 2 ^ 384) := by
  intro s hs
  obtain ⟨rax, rbx, rcx, rdx, rsi, rdi, rbp, r8, r9, r10, r11, r12, r13, r14, r15, cf, of, stk, m⟩ := s
  dsimp only at hs ⊢
  subst hs
  unfold Asm.subtract
  refine wp_push ?_; dsimp only [Cpu.get]
  refine wp_push ?_; dsimp only [Cpu.get]
  refine wp_push ?_; dsimp only [Cpu.get]
  refine wp_push ?_; dsimp only [Cpu.get]
  refine wp_push ?_; dsimp only [Cpu.get]
  refine wp_xor_self ?_; dsimp only [Cpu.set]
  refine wp_mov rfl ?_; dsimp only [Cpu.set, Cpu.get]
  refine wp_mov rfl ?_; dsimp only [Cpu.set, Cpu.get]
  refine wp_mov rfl ?_; dsimp only [Cpu.set, Cpu.get]
  refine wp_mov rfl ?_; dsimp only [Cpu.set, Cpu.get]
  refine wp_mov rfl ?_; dsimp only [Cpu.set, Cpu.get]
  refine wp_mov rfl ?_; dsimp only [Cpu.set, Cpu.get]
  refine wp_sub rfl (fun v1 c1 o1 h1 => ?_); dsimp only [Cpu.set, Cpu.get] at h1 ⊢
  refine wp_sbb rfl (fun v2 c2 o2 h2 => ?_); dsimp only [Cpu.set, Cpu.get] at h2 ⊢
  refine wp_sbb rfl (fun v3 c3 o3 h3 => ?_); dsimp only [Cpu.set, Cpu.get] at h3 ⊢
  refine wp_sbb rfl (fun v4 c4 o4 h4 => ?_); dsimp only [Cpu.set, Cpu.get] at h4 ⊢
  refine wp_sbb rfl (fun v5 c5 o5 h5 => ?_); dsimp only [Cpu.set, Cpu.get] at h5 ⊢
  refine wp_sbb rfl (fun v6 c6 o6 h6 => ?_); dsimp only [Cpu.set, Cpu.get] at h6 ⊢
  refine wp_mov rfl ?_; dsimp only [Cpu.set, Cpu.get]
  refine wp_mov rfl ?_; dsimp only [Cpu.set, Cpu.get]
  refine wp_mov rfl ?_; dsimp only [Cpu.set, Cpu.get]
  refine wp_mov rfl ?_; dsimp only [Cpu.set, Cpu.get]
  refine wp_mov rfl ?_; dsimp only [Cpu.set, Cpu.get]
  refine wp_mov rfl ?_; dsimp only [Cpu.set, Cpu.get]
  refine wp_cmovae ?_; dsimp only [Cpu.set, Cpu.get]
  refine wp_cmovae ?_; dsimp only [Cpu.set, Cpu.get]
  refine wp_cmovae ?_; dsimp only [Cpu.set, Cpu.get]
  refine wp_cmovae ?_; dsimp only [Cpu.set, Cpu.get]
  refine wp_cmovae ?_; dsimp only [Cpu.set, Cpu.get]
  refine wp_cmovae ?_; dsimp only [Cpu.set, Cpu.get]
  refine wp_add rfl (fun v7 c7 o7 h7 => ?_); dsimp only [Cpu.set, Cpu.get] at h7 ⊢
  refine wp_adc rfl (fun v8 c8 o8 h8 => ?_); dsimp only [Cpu.set, Cpu.get] at h8 ⊢
  refine wp_adc rfl (fun v9 c9 o9 h9 => ?_); dsimp only [Cpu.set, Cpu.get] at h9 ⊢
  refine wp_adc rfl (fun v10 c10 o10 h10 => ?_); dsimp only [Cpu.set, Cpu.get] at h10 ⊢
  refine wp_adc rfl (fun v11 c11 o11 h11 => ?_); dsimp only [Cpu.set, Cpu.get] at h11 ⊢
  refine wp_adc rfl (fun v12 c12 o12 h12 => ?_); dsimp only [Cpu.set, Cpu.get] at h12 ⊢
  refine wp_store ?_; dsimp only [Cpu.get]
  refine wp_store ?_; dsimp only [Cpu.get]
  refine wp_store ?_; dsimp only [Cpu.get]
  refine wp_store ?_; dsimp only [Cpu.get]
  refine wp_store ?_; dsimp only [Cpu.get]
  refine wp_store ?_; dsimp only [Cpu.get]
  refine wp_pop rfl ?_; dsimp only [Cpu.set]
  refine wp_pop rfl ?_; dsimp only [Cpu.set]
  refine wp_pop rfl ?_; dsimp only [Cpu.set]
  refine wp_pop rfl ?_; dsimp only [Cpu.set]
  refine wp_pop rfl ?_; dsimp only [Cpu.set]
  refine wp_ret rfl ?_
  have k1 : v1.toNat + 2 ^ 64 * v2.toNat + 2 ^ 128 * v3.toNat + 2 ^ 192 * v4.toNat + 2 ^ 256 * v5.toNat + 2 ^ 320 * v6.toNat + ((m (rdx + 0)).toNat + 2 ^ 64 * (m (rdx + 8)).toNat + 2 ^ 128 * (m (rdx + 0x10)).toNat + 2 ^ 192 * (m (rdx + 0x18)).toNat + 2 ^ 256 * (m (rdx + 0x20)).toNat + 2 ^ 320 * (m (rdx + 0x28)).toNat) = ((m (rsi + 0)).toNat + 2 ^ 64 * (m (rsi + 8)).toNat + 2 ^ 128 * (m (rsi + 0x10)).toNat + 2 ^ 192 * (m (rsi + 0x18)).toNat + 2 ^ 256 * (m (rsi + 0x20)).toNat + 2 ^ 320 * (m (rsi + 0x28)).toNat) + 2 ^ 384 * c6.toNat := by
    linear_combination h1 + 2 ^ 64 * h2 + 2 ^ 128 * h3 + 2 ^ 192 * h4 + 2 ^ 256 * h5 + 2 ^ 320 * h6
  have b1 := u6_lt v1 v2 v3 v4 v5 v6
  have bx := u6_lt (m (rsi + 0)) (m (rsi + 8)) (m (rsi + 0x10)) (m (rsi + 0x18)) (m (rsi + 0x20)) (m (rsi + 0x28))
  have by' := u6_lt (m (rdx + 0)) (m (rdx + 8)) (m (rdx + 0x10)) (m (rdx + 0x18)) (m (rdx + 0x20)) (m (rdx + 0x28))
  refine wp_nil ⟨⟨v7, v8, v9, v10, v11, v12⟩, ?_, rfl, rfl, rfl, rfl, rfl, rfl, rfl, rfl⟩
  rw [Fp.val_flat]
  simp only [readFp_val]
  have b2 := u6_lt v7 v8 v9 v10 v11 v12
  cases c6
  · have k2 : v7.toNat + 2 ^ 64 * v8.toNat + 2 ^ 128 * v9.toNat + 2 ^ 192 * v10.toNat + 2 ^ 256 * v11.toNat + 2 ^ 320 * v12.toNat + 2 ^ 384 * c12.toNat = v1.toNat + 2 ^ 64 * v2.toNat + 2 ^ 128 * v3.toNat + 2 ^ 192 * v4.toNat + 2 ^ 256 * v5.toNat + 2 ^ 320 * v6.toNat := by
      simp only [cond_false, UInt64.toNat_zero] at h7 h8 h9 h10 h11 h12
      linear_combination h7 + 2 ^ 64 * h8 + 2 ^ 128 * h9 + 2 ^ 192 * h10 + 2 ^ 256 * h11 + 2 ^ 320 * h12
    simp only [Bool.toNat_false] at k1
    have := Bool.toNat_le c12
    rw [if_pos (by omega)]; omega
  · have k2 : v7.toNat + 2 ^ 64 * v8.toNat + 2 ^ 128 * v9.toNat + 2 ^ 192 * v10.toNat + 2 ^ 256 * v11.toNat + 2 ^ 320 * v12.toNat + 2 ^ 384 * c12.toNat = v1.toNat + 2 ^ 64 * v2.toNat + 2 ^ 128 * v3.toNat + 2 ^ 192 * v4.toNat + 2 ^ 256 * v5.toNat + 2 ^ 320 * v6.toNat + ((0xb9feffffffffaaab : UInt64).toNat + 2 ^ 64 * (0x1eabfffeb153ffff : UInt64).toNat + 2 ^ 128 * (0x6730d2a0f6b0f624 : UInt64).toNat + 2 ^ 192 * (0x64774b84f38512bf : UInt64).toNat + 2 ^ 256 * (0x4b1ba7b6434bacd7 : UInt64).toNat + 2 ^ 320 * (0x1a0111ea397fe69a : UInt64).toNat) := by
      simp only [cond_true] at h7 h8 h9 h10 h11 h12
      linear_combination h7 + 2 ^ 64 * h8 + 2 ^ 128 * h9 + 2 ^ 192 * h10 + 2 ^ 256 * h11 + 2 ^ 320 * h12
    rw [modulus_sum] at k2
    simp only [Bool.toNat_true] at k1
    have e : ((m (rsi + 0)).toNat + 2 ^ 64 * (m (rsi + 8)).toNat + 2 ^ 128 * (m (rsi + 0x10)).toNat + 2 ^ 192 * (m (rsi + 0x18)).toNat + 2 ^ 256 * (m (rsi + 0x20)).toNat + 2 ^ 320 * (m (rsi + 0x28)).toNat) + 2 ^ 384 - ((m (rdx + 0)).toNat + 2 ^ 64 * (m (rdx + 8)).toNat + 2 ^ 128 * (m (rdx + 0x10)).toNat + 2 ^ 192 * (m (rdx + 0x18)).toNat + 2 ^ 256 * (m (rdx + 0x20)).toNat + 2 ^ 320 * (m (rdx + 0x28)).toNat) + p = v1.toNat + 2 ^ 64 * v2.toNat + 2 ^ 128 * v3.toNat + 2 ^ 192 * v4.toNat + 2 ^ 256 * v5.toNat + 2 ^ 320 * v6.toNat + p := by omega
    rw [if_neg (by omega), e, ← k2, Nat.add_mul_mod_self_left, Nat.mod_eq_of_lt b2]

/-- `_lsubtract`: the difference modulo `2^384`. -/
theorem lsubtract_wp : Computes Asm.lsubtract (fun x y => (x + 2 ^ 384 - y) % 2 ^ 384) := by
  intro s hs
  obtain ⟨rax, rbx, rcx, rdx, rsi, rdi, rbp, r8, r9, r10, r11, r12, r13, r14, r15, cf, of, stk, m⟩ := s
  dsimp only at hs ⊢
  subst hs
  unfold Asm.lsubtract
  refine wp_mov rfl ?_; dsimp only [Cpu.set, Cpu.get]
  refine wp_mov rfl ?_; dsimp only [Cpu.set, Cpu.get]
  refine wp_mov rfl ?_; dsimp only [Cpu.set, Cpu.get]
  refine wp_mov rfl ?_; dsimp only [Cpu.set, Cpu.get]
  refine wp_mov rfl ?_; dsimp only [Cpu.set, Cpu.get]
  refine wp_mov rfl ?_; dsimp only [Cpu.set, Cpu.get]
  refine wp_sub rfl (fun v1 c1 o1 h1 => ?_); dsimp only [Cpu.set, Cpu.get] at h1 ⊢
  refine wp_sbb rfl (fun v2 c2 o2 h2 => ?_); dsimp only [Cpu.set, Cpu.get] at h2 ⊢
  refine wp_sbb rfl (fun v3 c3 o3 h3 => ?_); dsimp only [Cpu.set, Cpu.get] at h3 ⊢
  refine wp_sbb rfl (fun v4 c4 o4 h4 => ?_); dsimp only [Cpu.set, Cpu.get] at h4 ⊢
  refine wp_sbb rfl (fun v5 c5 o5 h5 => ?_); dsimp only [Cpu.set, Cpu.get] at h5 ⊢
  refine wp_sbb rfl (fun v6 c6 o6 h6 => ?_); dsimp only [Cpu.set, Cpu.get] at h6 ⊢
  refine wp_store ?_; dsimp only [Cpu.get]
  refine wp_store ?_; dsimp only [Cpu.get]
  refine wp_store ?_; dsimp only [Cpu.get]
  refine wp_store ?_; dsimp only [Cpu.get]
  refine wp_store ?_; dsimp only [Cpu.get]
  refine wp_store ?_; dsimp only [Cpu.get]
  refine wp_ret rfl ?_
  have k1 : v1.toNat + 2 ^ 64 * v2.toNat + 2 ^ 128 * v3.toNat + 2 ^ 192 * v4.toNat + 2 ^ 256 * v5.toNat + 2 ^ 320 * v6.toNat + ((m (rdx + 0)).toNat + 2 ^ 64 * (m (rdx + 8)).toNat + 2 ^ 128 * (m (rdx + 0x10)).toNat + 2 ^ 192 * (m (rdx + 0x18)).toNat + 2 ^ 256 * (m (rdx + 0x20)).toNat + 2 ^ 320 * (m (rdx + 0x28)).toNat) = ((m (rsi + 0)).toNat + 2 ^ 64 * (m (rsi + 8)).toNat + 2 ^ 128 * (m (rsi + 0x10)).toNat + 2 ^ 192 * (m (rsi + 0x18)).toNat + 2 ^ 256 * (m (rsi + 0x20)).toNat + 2 ^ 320 * (m (rsi + 0x28)).toNat) + 2 ^ 384 * c6.toNat := by
    linear_combination h1 + 2 ^ 64 * h2 + 2 ^ 128 * h3 + 2 ^ 192 * h4 + 2 ^ 256 * h5 + 2 ^ 320 * h6
  have b1 := u6_lt v1 v2 v3 v4 v5 v6
  have bx := u6_lt (m (rsi + 0)) (m (rsi + 8)) (m (rsi + 0x10)) (m (rsi + 0x18)) (m (rsi + 0x20)) (m (rsi + 0x28))
  have by' := u6_lt (m (rdx + 0)) (m (rdx + 8)) (m (rdx + 0x10)) (m (rdx + 0x18)) (m (rdx + 0x20)) (m (rdx + 0x28))
  refine wp_nil ⟨⟨v1, v2, v3, v4, v5, v6⟩, ?_, rfl, rfl, rfl, rfl, rfl, rfl, rfl, rfl⟩
  rw [Fp.val_flat]
  simp only [readFp_val]
  have := Bool.toNat_le c6
  omega

/-- `__negate`: the modulus minus the operand, modulo `2^384`. -/
theorem negate_wp : Computes Asm.negate (fun x y => (p + 2 ^ 384 - x) % 2 ^ 384) := by
  intro s hs
  obtain ⟨rax, rbx, rcx, rdx, rsi, rdi, rbp, r8, r9, r10, r11, r12, r13, r14, r15, cf, of, stk, m⟩ := s
  dsimp only at hs ⊢
  subst hs
  unfold Asm.negate
  refine wp_mov rfl ?_; dsimp only [Cpu.set, Cpu.get]
  refine wp_mov rfl ?_; dsimp only [Cpu.set, Cpu.get]
  refine wp_mov rfl ?_; dsimp only [Cpu.set, Cpu.get]
  refine wp_mov rfl ?_; dsimp only [Cpu.set, Cpu.get]
  refine wp_mov rfl ?_; dsimp only [Cpu.set, Cpu.get]
  refine wp_mov rfl ?_; dsimp only [Cpu.set, Cpu.get]
  refine wp_sub rfl (fun v1 c1 o1 h1 => ?_); dsimp only [Cpu.set, Cpu.get] at h1 ⊢
  refine wp_sbb rfl (fun v2 c2 o2 h2 => ?_); dsimp only [Cpu.set, Cpu.get] at h2 ⊢
  refine wp_sbb rfl (fun v3 c3 o3 h3 => ?_); dsimp only [Cpu.set, Cpu.get] at h3 ⊢
  refine wp_sbb rfl (fun v4 c4 o4 h4 => ?_); dsimp only [Cpu.set, Cpu.get] at h4 ⊢
  refine wp_sbb rfl (fun v5 c5 o5 h5 => ?_); dsimp only [Cpu.set, Cpu.get] at h5 ⊢
  refine wp_sbb rfl (fun v6 c6 o6 h6 => ?_); dsimp only [Cpu.set, Cpu.get] at h6 ⊢
  refine wp_store ?_; dsimp only [Cpu.get]
  refine wp_store ?_; dsimp only [Cpu.get]
  refine wp_store ?_; dsimp only [Cpu.get]
  refine wp_store ?_; dsimp only [Cpu.get]
  refine wp_store ?_; dsimp only [Cpu.get]
  refine wp_store ?_; dsimp only [Cpu.get]
  refine wp_ret rfl ?_
  have k1 : v1.toNat + 2 ^ 64 * v2.toNat + 2 ^ 128 * v3.toNat + 2 ^ 192 * v4.toNat + 2 ^ 256 * v5.toNat + 2 ^ 320 * v6.toNat + ((m (rsi + 0)).toNat + 2 ^ 64 * (m (rsi + 8)).toNat + 2 ^ 128 * (m (rsi + 0x10)).toNat + 2 ^ 192 * (m (rsi + 0x18)).toNat + 2 ^ 256 * (m (rsi + 0x20)).toNat + 2 ^ 320 * (m (rsi + 0x28)).toNat) = ((0xb9feffffffffaaab : UInt64).toNat + 2 ^ 64 * (0x1eabfffeb153ffff : UInt64).toNat + 2 ^ 128 * (0x6730d2a0f6b0f624 : UInt64).toNat + 2 ^ 192 * (0x64774b84f38512bf : UInt64).toNat + 2 ^ 256 * (0x4b1ba7b6434bacd7 : UInt64).toNat + 2 ^ 320 * (0x1a0111ea397fe69a : UInt64).toNat) + 2 ^ 384 * c6.toNat := by
    linear_combination h1 + 2 ^ 64 * h2 + 2 ^ 128 * h3 + 2 ^ 192 * h4 + 2 ^ 256 * h5 + 2 ^ 320 * h6
  have b1 := u6_lt v1 v2 v3 v4 v5 v6
  have bx := p_lt
  have by' := u6_lt (m (rsi + 0)) (m (rsi + 8)) (m (rsi + 0x10)) (m (rsi + 0x18)) (m (rsi + 0x20)) (m (rsi + 0x28))
  rw [modulus_sum] at k1
  refine wp_nil ⟨⟨v1, v2, v3, v4, v5, v6⟩, ?_, rfl, rfl, rfl, rfl, rfl, rfl, rfl, rfl⟩
  rw [Fp.val_flat]
  simp only [readFp_val]
  have := Bool.toNat_le c6
  omega

end Bls.X86
