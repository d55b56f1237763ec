import Verif.Proof.X86Mont

/-! Symbolic execution of the blocks of `multiply` (`src/arithmetic.s`). Generated by
`tools/gen_asm_proof.py`; every step is checked by Lean. -/

namespace Bls.X86

set_option exponentiation.threshold 1000
set_option linter.unusedVariables false
set_option linter.unusedSimpArgs false

theorem multiply_pre_wp {is : List Instr} {Q : Cpu → Prop}
    {rax rbx rcx rdx rsi rdi rbp r8 r9 r10 r11 r12 r13 r14 r15 : UInt64} {cf of : Bool} {m : UInt64 → UInt64}
    (H : wp is Q ⟨0x1a0111ea397fe69a, rbx, rcx, rdx, rsi, rdx, 0xffffffffffffffc8, r8, 0, 0, 0, 0, 0, 0, 0, cf, of, [rdi, 0x1a0111ea397fe69a, 0x4b1ba7b6434bacd7, 0x64774b84f38512bf, 0x6730d2a0f6b0f624, 0x1eabfffeb153ffff, 0xb9feffffffffaaab, 0x89f3fffcfffcfffd, rbx, r12, r13, r14, r15, rbp], m⟩) :
    wp (Asm.multiply_pre ++ is) Q ⟨rax, rbx, rcx, rdx, rsi, rdi, rbp, r8, r9, r10, r11, r12, r13, r14, r15, cf, of, [], m⟩ := by
  simp only [Asm.multiply_pre, List.cons_append, List.nil_append]
  refine wp_push ?_
  dsimp only [Cpu.get]
  refine wp_push ?_
  dsimp only [Cpu.get]
  refine wp_push ?_
  dsimp only [Cpu.get]
  refine wp_push ?_
  dsimp only [Cpu.get]
  refine wp_push ?_
  dsimp only [Cpu.get]
  refine wp_push ?_
  dsimp only [Cpu.get]
  refine wp_mov rfl ?_
  dsimp only [Cpu.set, Cpu.get]
  refine wp_push ?_
  dsimp only [Cpu.get]
  refine wp_movRsp (a := 0xffffffffffffffc8) rfl ?_
  dsimp only [Cpu.set]
  refine wp_mov rfl ?_
  dsimp only [Cpu.set, Cpu.get]
  refine wp_push ?_
  dsimp only [Cpu.get]
  refine wp_mov rfl ?_
  dsimp only [Cpu.set, Cpu.get]
  refine wp_push ?_
  dsimp only [Cpu.get]
  refine wp_mov rfl ?_
  dsimp only [Cpu.set, Cpu.get]
  refine wp_push ?_
  dsimp only [Cpu.get]
  refine wp_mov rfl ?_
  dsimp only [Cpu.set, Cpu.get]
  refine wp_push ?_
  dsimp only [Cpu.get]
  refine wp_mov rfl ?_
  dsimp only [Cpu.set, Cpu.get]
  refine wp_push ?_
  dsimp only [Cpu.get]
  refine wp_mov rfl ?_
  dsimp only [Cpu.set, Cpu.get]
  refine wp_push ?_
  dsimp only [Cpu.get]
  refine wp_mov rfl ?_
  dsimp only [Cpu.set, Cpu.get]
  refine wp_mov rfl ?_
  dsimp only [Cpu.set, Cpu.get]
  refine wp_mov rfl ?_
  dsimp only [Cpu.set, Cpu.get]
  refine wp_mov rfl ?_
  dsimp only [Cpu.set, Cpu.get]
  refine wp_mov rfl ?_
  dsimp only [Cpu.set, Cpu.get]
  refine wp_mov rfl ?_
  dsimp only [Cpu.set, Cpu.get]
  refine wp_mov rfl ?_
  dsimp only [Cpu.set, Cpu.get]
  refine wp_push ?_
  dsimp only [Cpu.get]
  refine wp_mov rfl ?_
  dsimp only [Cpu.set, Cpu.get]
  exact H  

theorem multiply_row0_wp {is : List Instr} {Q : Cpu → Prop}
    {rbx rcx rdx rsi rdi r8 z P5 P4 P3 P2 P1 P0 N s0 s1 s2 s3 s4 s5 : UInt64} {cf of : Bool} {m : UInt64 → UInt64}
    (H : ∀ (l1 : UInt64) (v3 : UInt64) (v6 : UInt64) (v9 : UInt64) (v12 : UInt64) (l14 : UInt64) (u14 : UInt64) (v15 : UInt64) (v16 : UInt64) (c16 : Bool) (o16 : Bool), (l1.toNat + 2 ^ 64 * v3.toNat + 2 ^ 128 * v6.toNat + 2 ^ 192 * v9.toNat + 2 ^ 256 * v12.toNat + 2 ^ 320 * v15.toNat + 2 ^ 384 * v16.toNat = 0 + (m (rsi + 0)).toNat * ((m (rdi + 0)).toNat + 2 ^ 64 * (m (rdi + 8)).toNat + 2 ^ 128 * (m (rdi + 0x10)).toNat + 2 ^ 192 * (m (rdi + 0x18)).toNat + 2 ^ 256 * (m (rdi + 0x20)).toNat + 2 ^ 320 * (m (rdi + 0x28)).toNat)) → wp is Q ⟨l14, rbx, m (rsi + 0), u14, rsi, rdi, 0xffffffffffffffc8, v3, v6, v9, v12, v15, v16, 0, 0, c16, o16, [l1, z, P5, P4, P3, P2, P1, P0, N, s0, s1, s2, s3, s4, s5], m⟩) :
    wp (Asm.multiply_row0 ++ is) Q ⟨0x1a0111ea397fe69a, rbx, rcx, rdx, rsi, rdi, 0xffffffffffffffc8, r8, 0, 0, 0, 0, 0, 0, 0, cf, of, [z, P5, P4, P3, P2, P1, P0, N, s0, s1, s2, s3, s4, s5], m⟩ := by
  simp only [Asm.multiply_row0, List.cons_append, List.nil_append]
  refine wp_mov rfl ?_
  dsimp only [Cpu.set, Cpu.get]
  refine wp_mov rfl ?_
  dsimp only [Cpu.set, Cpu.get]
  refine wp_mul rfl (fun l1 u1 c1 o1 h1 => ?_)
  dsimp only [Cpu.set, Cpu.get] at h1 ⊢
  have b1 := mul_hi h1 (u64_lt _) (u64_lt _)
  refine wp_push ?_
  dsimp only [Cpu.get]
  refine wp_mov rfl ?_
  dsimp only [Cpu.set, Cpu.get]
  refine wp_mov rfl ?_
  dsimp only [Cpu.set, Cpu.get]
  refine wp_mul rfl (fun l2 u2 c2 o2 h2 => ?_)
  dsimp only [Cpu.set, Cpu.get] at h2 ⊢
  have b2 := mul_hi h2 (u64_lt _) (u64_lt _)
  refine wp_add rfl (fun v3 c3 o3 h3 => ?_)
  dsimp only [Cpu.set, Cpu.get] at h3 ⊢
  refine wp_adc rfl (fun v4 c4 o4 h4 => ?_)
  dsimp only [Cpu.set, Cpu.get] at h4 ⊢
  obtain ⟨b4, z4⟩ := adc_small h4 (le_of_eq UInt64.toNat_zero) b2 (Bool.toNat_le _) (by norm_num)
  rw [z4, Nat.mul_zero, Nat.add_zero] at h4
  simp only [UInt64.toNat_zero, add_zero, zero_add] at h4
  refine wp_mov rfl ?_
  dsimp only [Cpu.set, Cpu.get]
  refine wp_mul rfl (fun l5 u5 c5 o5 h5 => ?_)
  dsimp only [Cpu.set, Cpu.get] at h5 ⊢
  have b5 := mul_hi h5 (u64_lt _) (u64_lt _)
  refine wp_add rfl (fun v6 c6 o6 h6 => ?_)
  dsimp only [Cpu.set, Cpu.get] at h6 ⊢
  refine wp_adc rfl (fun v7 c7 o7 h7 => ?_)
  dsimp only [Cpu.set, Cpu.get] at h7 ⊢
  obtain ⟨b7, z7⟩ := adc_small h7 (le_of_eq UInt64.toNat_zero) b5 (Bool.toNat_le _) (by norm_num)
  rw [z7, Nat.mul_zero, Nat.add_zero] at h7
  simp only [UInt64.toNat_zero, add_zero, zero_add] at h7
  refine wp_mov rfl ?_
  dsimp only [Cpu.set, Cpu.get]
  refine wp_mul rfl (fun l8 u8 c8 o8 h8 => ?_)
  dsimp only [Cpu.set, Cpu.get] at h8 ⊢
  have b8 := mul_hi h8 (u64_lt _) (u64_lt _)
  refine wp_add rfl (fun v9 c9 o9 h9 => ?_)
  dsimp only [Cpu.set, Cpu.get] at h9 ⊢
  refine wp_adc rfl (fun v10 c10 o10 h10 => ?_)
  dsimp only [Cpu.set, Cpu.get] at h10 ⊢
  obtain ⟨b10, z10⟩ := adc_small h10 (le_of_eq UInt64.toNat_zero) b8 (Bool.toNat_le _) (by norm_num)
  rw [z10, Nat.mul_zero, Nat.add_zero] at h10
  simp only [UInt64.toNat_zero, add_zero, zero_add] at h10
  refine wp_mov rfl ?_
  dsimp only [Cpu.set, Cpu.get]
  refine wp_mul rfl (fun l11 u11 c11 o11 h11 => ?_)
  dsimp only [Cpu.set, Cpu.get] at h11 ⊢
  have b11 := mul_hi h11 (u64_lt _) (u64_lt _)
  refine wp_add rfl (fun v12 c12 o12 h12 => ?_)
  dsimp only [Cpu.set, Cpu.get] at h12 ⊢
  refine wp_adc rfl (fun v13 c13 o13 h13 => ?_)
  dsimp only [Cpu.set, Cpu.get] at h13 ⊢
  obtain ⟨b13, z13⟩ := adc_small h13 (le_of_eq UInt64.toNat_zero) b11 (Bool.toNat_le _) (by norm_num)
  rw [z13, Nat.mul_zero, Nat.add_zero] at h13
  simp only [UInt64.toNat_zero, add_zero, zero_add] at h13
  refine wp_mov rfl ?_
  dsimp only [Cpu.set, Cpu.get]
  refine wp_mul rfl (fun l14 u14 c14 o14 h14 => ?_)
  dsimp only [Cpu.set, Cpu.get] at h14 ⊢
  have b14 := mul_hi h14 (u64_lt _) (u64_lt _)
  refine wp_add rfl (fun v15 c15 o15 h15 => ?_)
  dsimp only [Cpu.set, Cpu.get] at h15 ⊢
  refine wp_adc rfl (fun v16 c16 o16 h16 => ?_)
  dsimp only [Cpu.set, Cpu.get] at h16 ⊢
  obtain ⟨b16, z16⟩ := adc_small h16 (le_of_eq UInt64.toNat_zero) b14 (Bool.toNat_le _) (by norm_num)
  rw [z16, Nat.mul_zero, Nat.add_zero] at h16
  simp only [UInt64.toNat_zero, add_zero, zero_add] at h16
  have key : l1.toNat + 2 ^ 64 * v3.toNat + 2 ^ 128 * v6.toNat + 2 ^ 192 * v9.toNat + 2 ^ 256 * v12.toNat + 2 ^ 320 * v15.toNat + 2 ^ 384 * v16.toNat = 0 + (m (rsi + 0)).toNat * ((m (rdi + 0)).toNat + 2 ^ 64 * (m (rdi + 8)).toNat + 2 ^ 128 * (m (rdi + 0x10)).toNat + 2 ^ 192 * (m (rdi + 0x18)).toNat + 2 ^ 256 * (m (rdi + 0x20)).toNat + 2 ^ 320 * (m (rdi + 0x28)).toNat) := by
    linear_combination 2 ^ 384 * h16 + 2 ^ 320 * h15 + 2 ^ 320 * h14 + 2 ^ 320 * h13 + 2 ^ 256 * h12 + 2 ^ 256 * h11 + 2 ^ 256 * h10 + 2 ^ 192 * h9 + 2 ^ 192 * h8 + 2 ^ 192 * h7 + 2 ^ 128 * h6 + 2 ^ 128 * h5 + 2 ^ 128 * h4 + 2 ^ 64 * h3 + 2 ^ 64 * h2 + h1
  exact H l1 v3 v6 v9 v12 l14 u14 v15 v16 c16 o16 key

theorem multiply_row1_wp {is : List Instr} {Q : Cpu → Prop}
    {rax rbx rcx rdx rsi rdi r8 r9 r10 r11 r12 r13 t0 z P5 P4 P3 P2 P1 P0 N s0 s1 s2 s3 s4 s5 : UInt64} {cf of : Bool} {m : UInt64 → UInt64}
    (H : ∀ (v2 : UInt64) (v7 : UInt64) (v12 : UInt64) (v17 : UInt64) (v20 : UInt64) (v22 : UInt64) (l25 : UInt64) (u25 : UInt64) (v26 : UInt64) (v27 : UInt64) (c27 : Bool) (o27 : Bool), (v2.toNat + 2 ^ 64 * v7.toNat + 2 ^ 128 * v12.toNat + 2 ^ 192 * v17.toNat + 2 ^ 256 * v22.toNat + 2 ^ 320 * v26.toNat + 2 ^ 384 * v27.toNat = r8.toNat + 2 ^ 64 * r9.toNat + 2 ^ 128 * r10.toNat + 2 ^ 192 * r11.toNat + 2 ^ 256 * r12.toNat + 2 ^ 320 * r13.toNat + (m (rsi + 8)).toNat * ((m (rdi + 0)).toNat + 2 ^ 64 * (m (rdi + 8)).toNat + 2 ^ 128 * (m (rdi + 0x10)).toNat + 2 ^ 192 * (m (rdi + 0x18)).toNat + 2 ^ 256 * (m (rdi + 0x20)).toNat + 2 ^ 320 * (m (rdi + 0x28)).toNat)) → wp is Q ⟨l25, v20, m (rsi + 8), u25, rsi, rdi, 0xffffffffffffffc8, 0, v7, v12, v17, v22, v26, v27, 0, c27, o27, [v2, t0, z, P5, P4, P3, P2, P1, P0, N, s0, s1, s2, s3, s4, s5], m⟩) :
    wp (Asm.multiply_row1 ++ is) Q ⟨rax, rbx, rcx, rdx, rsi, rdi, 0xffffffffffffffc8, r8, r9, r10, r11, r12, r13, 0, 0, cf, of, [t0, z, P5, P4, P3, P2, P1, P0, N, s0, s1, s2, s3, s4, s5], m⟩ := by
  simp only [Asm.multiply_row1, List.cons_append, List.nil_append]
  refine wp_mov rfl ?_
  dsimp only [Cpu.set, Cpu.get]
  refine wp_mov rfl ?_
  dsimp only [Cpu.set, Cpu.get]
  refine wp_mov rfl ?_
  dsimp only [Cpu.set, Cpu.get]
  refine wp_mul rfl (fun l1 u1 c1 o1 h1 => ?_)
  dsimp only [Cpu.set, Cpu.get] at h1 ⊢
  have b1 := mul_hi h1 (u64_lt _) (u64_lt _)
  refine wp_add rfl (fun v2 c2 o2 h2 => ?_)
  dsimp only [Cpu.set, Cpu.get] at h2 ⊢
  refine wp_adc rfl (fun v3 c3 o3 h3 => ?_)
  dsimp only [Cpu.set, Cpu.get] at h3 ⊢
  refine wp_adc rfl (fun v4 c4 o4 h4 => ?_)
  dsimp only [Cpu.set, Cpu.get] at h4 ⊢
  simp only [UInt64.toNat_zero, add_zero, zero_add] at h4
  refine wp_adc rfl (fun v5 c5 o5 h5 => ?_)
  dsimp only [Cpu.set, Cpu.get] at h5 ⊢
  obtain ⟨b5, z5⟩ := adc_small h5 (le_of_eq UInt64.toNat_zero) (le_of_eq UInt64.toNat_zero) (Bool.toNat_le _) (by norm_num)
  rw [z5, Nat.mul_zero, Nat.add_zero] at h5
  simp only [UInt64.toNat_zero, add_zero, zero_add] at h5
  refine wp_push ?_
  dsimp only [Cpu.get]
  refine wp_mov rfl ?_
  dsimp only [Cpu.set, Cpu.get]
  refine wp_mov rfl ?_
  dsimp only [Cpu.set, Cpu.get]
  refine wp_mul rfl (fun l6 u6 c6 o6 h6 => ?_)
  dsimp only [Cpu.set, Cpu.get] at h6 ⊢
  have b6 := mul_hi h6 (u64_lt _) (u64_lt _)
  refine wp_add rfl (fun v7 c7 o7 h7 => ?_)
  dsimp only [Cpu.set, Cpu.get] at h7 ⊢
  refine wp_adc rfl (fun v8 c8 o8 h8 => ?_)
  dsimp only [Cpu.set, Cpu.get] at h8 ⊢
  refine wp_adc rfl (fun v9 c9 o9 h9 => ?_)
  dsimp only [Cpu.set, Cpu.get] at h9 ⊢
  refine wp_mov rfl ?_
  dsimp only [Cpu.set, Cpu.get]
  refine wp_adc rfl (fun v10 c10 o10 h10 => ?_)
  dsimp only [Cpu.set, Cpu.get] at h10 ⊢
  obtain ⟨b10, z10⟩ := adc_small h10 (le_of_eq UInt64.toNat_zero) (le_of_eq UInt64.toNat_zero) (Bool.toNat_le _) (by norm_num)
  rw [z10, Nat.mul_zero, Nat.add_zero] at h10
  simp only [UInt64.toNat_zero, add_zero, zero_add] at h10
  refine wp_mov rfl ?_
  dsimp only [Cpu.set, Cpu.get]
  refine wp_mul rfl (fun l11 u11 c11 o11 h11 => ?_)
  dsimp only [Cpu.set, Cpu.get] at h11 ⊢
  have b11 := mul_hi h11 (u64_lt _) (u64_lt _)
  refine wp_add rfl (fun v12 c12 o12 h12 => ?_)
  dsimp only [Cpu.set, Cpu.get] at h12 ⊢
  refine wp_adc rfl (fun v13 c13 o13 h13 => ?_)
  dsimp only [Cpu.set, Cpu.get] at h13 ⊢
  refine wp_adc rfl (fun v14 c14 o14 h14 => ?_)
  dsimp only [Cpu.set, Cpu.get] at h14 ⊢
  refine wp_mov rfl ?_
  dsimp only [Cpu.set, Cpu.get]
  refine wp_adc rfl (fun v15 c15 o15 h15 => ?_)
  dsimp only [Cpu.set, Cpu.get] at h15 ⊢
  obtain ⟨b15, z15⟩ := adc_small h15 (le_of_eq UInt64.toNat_zero) (le_of_eq UInt64.toNat_zero) (Bool.toNat_le _) (by norm_num)
  rw [z15, Nat.mul_zero, Nat.add_zero] at h15
  simp only [UInt64.toNat_zero, add_zero, zero_add] at h15
  refine wp_mov rfl ?_
  dsimp only [Cpu.set, Cpu.get]
  refine wp_mul rfl (fun l16 u16 c16 o16 h16 => ?_)
  dsimp only [Cpu.set, Cpu.get] at h16 ⊢
  have b16 := mul_hi h16 (u64_lt _) (u64_lt _)
  refine wp_add rfl (fun v17 c17 o17 h17 => ?_)
  dsimp only [Cpu.set, Cpu.get] at h17 ⊢
  refine wp_adc rfl (fun v18 c18 o18 h18 => ?_)
  dsimp only [Cpu.set, Cpu.get] at h18 ⊢
  refine wp_adc rfl (fun v19 c19 o19 h19 => ?_)
  dsimp only [Cpu.set, Cpu.get] at h19 ⊢
  refine wp_mov rfl ?_
  dsimp only [Cpu.set, Cpu.get]
  refine wp_adc rfl (fun v20 c20 o20 h20 => ?_)
  dsimp only [Cpu.set, Cpu.get] at h20 ⊢
  obtain ⟨b20, z20⟩ := adc_small h20 (le_of_eq UInt64.toNat_zero) (le_of_eq UInt64.toNat_zero) (Bool.toNat_le _) (by norm_num)
  rw [z20, Nat.mul_zero, Nat.add_zero] at h20
  simp only [UInt64.toNat_zero, add_zero, zero_add] at h20
  refine wp_mov rfl ?_
  dsimp only [Cpu.set, Cpu.get]
  refine wp_mul rfl (fun l21 u21 c21 o21 h21 => ?_)
  dsimp only [Cpu.set, Cpu.get] at h21 ⊢
  have b21 := mul_hi h21 (u64_lt _) (u64_lt _)
  refine wp_add rfl (fun v22 c22 o22 h22 => ?_)
  dsimp only [Cpu.set, Cpu.get] at h22 ⊢
  refine wp_adc rfl (fun v23 c23 o23 h23 => ?_)
  dsimp only [Cpu.set, Cpu.get] at h23 ⊢
  refine wp_adc rfl (fun v24 c24 o24 h24 => ?_)
  dsimp only [Cpu.set, Cpu.get] at h24 ⊢
  obtain ⟨b24, z24⟩ := adc_small h24 (le_of_eq UInt64.toNat_zero) b20 (Bool.toNat_le _) (by norm_num)
  rw [z24, Nat.mul_zero, Nat.add_zero] at h24
  simp only [UInt64.toNat_zero, add_zero, zero_add] at h24
  refine wp_mov rfl ?_
  dsimp only [Cpu.set, Cpu.get]
  refine wp_mul rfl (fun l25 u25 c25 o25 h25 => ?_)
  dsimp only [Cpu.set, Cpu.get] at h25 ⊢
  have b25 := mul_hi h25 (u64_lt _) (u64_lt _)
  refine wp_add rfl (fun v26 c26 o26 h26 => ?_)
  dsimp only [Cpu.set, Cpu.get] at h26 ⊢
  refine wp_adc rfl (fun v27 c27 o27 h27 => ?_)
  dsimp only [Cpu.set, Cpu.get] at h27 ⊢
  have key : v2.toNat + 2 ^ 64 * v7.toNat + 2 ^ 128 * v12.toNat + 2 ^ 192 * v17.toNat + 2 ^ 256 * v22.toNat + 2 ^ 320 * v26.toNat + 2 ^ 384 * v27.toNat + 2 ^ 448 * c27.toNat = r8.toNat + 2 ^ 64 * r9.toNat + 2 ^ 128 * r10.toNat + 2 ^ 192 * r11.toNat + 2 ^ 256 * r12.toNat + 2 ^ 320 * r13.toNat + (m (rsi + 8)).toNat * ((m (rdi + 0)).toNat + 2 ^ 64 * (m (rdi + 8)).toNat + 2 ^ 128 * (m (rdi + 0x10)).toNat + 2 ^ 192 * (m (rdi + 0x18)).toNat + 2 ^ 256 * (m (rdi + 0x20)).toNat + 2 ^ 320 * (m (rdi + 0x28)).toNat) := by
    linear_combination 2 ^ 384 * h27 + 2 ^ 320 * h26 + 2 ^ 320 * h25 + 2 ^ 384 * h24 + 2 ^ 320 * h23 + 2 ^ 256 * h22 + 2 ^ 256 * h21 + 2 ^ 384 * h20 + 2 ^ 320 * h19 + 2 ^ 256 * h18 + 2 ^ 192 * h17 + 2 ^ 192 * h16 + 2 ^ 320 * h15 + 2 ^ 256 * h14 + 2 ^ 192 * h13 + 2 ^ 128 * h12 + 2 ^ 128 * h11 + 2 ^ 256 * h10 + 2 ^ 192 * h9 + 2 ^ 128 * h8 + 2 ^ 64 * h7 + 2 ^ 64 * h6 + 2 ^ 192 * h5 + 2 ^ 128 * h4 + 2 ^ 64 * h3 + h2 + h1
  rw [row_top key (u6_lt (r8) (r9) (r10) (r11) (r12) (r13)) (u64_lt _) (u6_lt (m (rdi + 0)) (m (rdi + 8)) (m (rdi + 0x10)) (m (rdi + 0x18)) (m (rdi + 0x20)) (m (rdi + 0x28))), Nat.mul_zero, Nat.add_zero] at key
  exact H v2 v7 v12 v17 v20 v22 l25 u25 v26 v27 c27 o27 key

theorem multiply_row2_wp {is : List Instr} {Q : Cpu → Prop}
    {rax rbx rcx rdx rsi rdi r9 r10 r11 r12 r13 r14 t1 t0 z P5 P4 P3 P2 P1 P0 N s0 s1 s2 s3 s4 s5 : UInt64} {cf of : Bool} {m : UInt64 → UInt64}
    (H : ∀ (v2 : UInt64) (v7 : UInt64) (v12 : UInt64) (v17 : UInt64) (v20 : UInt64) (v22 : UInt64) (l25 : UInt64) (u25 : UInt64) (v26 : UInt64) (v27 : UInt64) (c27 : Bool) (o27 : Bool), (v2.toNat + 2 ^ 64 * v7.toNat + 2 ^ 128 * v12.toNat + 2 ^ 192 * v17.toNat + 2 ^ 256 * v22.toNat + 2 ^ 320 * v26.toNat + 2 ^ 384 * v27.toNat = r9.toNat + 2 ^ 64 * r10.toNat + 2 ^ 128 * r11.toNat + 2 ^ 192 * r12.toNat + 2 ^ 256 * r13.toNat + 2 ^ 320 * r14.toNat + (m (rsi + 0x10)).toNat * ((m (rdi + 0)).toNat + 2 ^ 64 * (m (rdi + 8)).toNat + 2 ^ 128 * (m (rdi + 0x10)).toNat + 2 ^ 192 * (m (rdi + 0x18)).toNat + 2 ^ 256 * (m (rdi + 0x20)).toNat + 2 ^ 320 * (m (rdi + 0x28)).toNat)) → wp is Q ⟨l25, v20, m (rsi + 0x10), u25, rsi, rdi, 0xffffffffffffffc8, 0, 0, v7, v12, v17, v22, v26, v27, c27, o27, [v2, t1, t0, z, P5, P4, P3, P2, P1, P0, N, s0, s1, s2, s3, s4, s5], m⟩) :
    wp (Asm.multiply_row2 ++ is) Q ⟨rax, rbx, rcx, rdx, rsi, rdi, 0xffffffffffffffc8, 0, r9, r10, r11, r12, r13, r14, 0, cf, of, [t1, t0, z, P5, P4, P3, P2, P1, P0, N, s0, s1, s2, s3, s4, s5], m⟩ := by
  simp only [Asm.multiply_row2, List.cons_append, List.nil_append]
  refine wp_mov rfl ?_
  dsimp only [Cpu.set, Cpu.get]
  refine wp_mov rfl ?_
  dsimp only [Cpu.set, Cpu.get]
  refine wp_mov rfl ?_
  dsimp only [Cpu.set, Cpu.get]
  refine wp_mul rfl (fun l1 u1 c1 o1 h1 => ?_)
  dsimp only [Cpu.set, Cpu.get] at h1 ⊢
  have b1 := mul_hi h1 (u64_lt _) (u64_lt _)
  refine wp_add rfl (fun v2 c2 o2 h2 => ?_)
  dsimp only [Cpu.set, Cpu.get] at h2 ⊢
  refine wp_adc rfl (fun v3 c3 o3 h3 => ?_)
  dsimp only [Cpu.set, Cpu.get] at h3 ⊢
  refine wp_adc rfl (fun v4 c4 o4 h4 => ?_)
  dsimp only [Cpu.set, Cpu.get] at h4 ⊢
  simp only [UInt64.toNat_zero, add_zero, zero_add] at h4
  refine wp_adc rfl (fun v5 c5 o5 h5 => ?_)
  dsimp only [Cpu.set, Cpu.get] at h5 ⊢
  obtain ⟨b5, z5⟩ := adc_small h5 (le_of_eq UInt64.toNat_zero) (le_of_eq UInt64.toNat_zero) (Bool.toNat_le _) (by norm_num)
  rw [z5, Nat.mul_zero, Nat.add_zero] at h5
  simp only [UInt64.toNat_zero, add_zero, zero_add] at h5
  refine wp_push ?_
  dsimp only [Cpu.get]
  refine wp_mov rfl ?_
  dsimp only [Cpu.set, Cpu.get]
  refine wp_mov rfl ?_
  dsimp only [Cpu.set, Cpu.get]
  refine wp_mul rfl (fun l6 u6 c6 o6 h6 => ?_)
  dsimp only [Cpu.set, Cpu.get] at h6 ⊢
  have b6 := mul_hi h6 (u64_lt _) (u64_lt _)
  refine wp_add rfl (fun v7 c7 o7 h7 => ?_)
  dsimp only [Cpu.set, Cpu.get] at h7 ⊢
  refine wp_adc rfl (fun v8 c8 o8 h8 => ?_)
  dsimp only [Cpu.set, Cpu.get] at h8 ⊢
  refine wp_adc rfl (fun v9 c9 o9 h9 => ?_)
  dsimp only [Cpu.set, Cpu.get] at h9 ⊢
  refine wp_mov rfl ?_
  dsimp only [Cpu.set, Cpu.get]
  refine wp_adc rfl (fun v10 c10 o10 h10 => ?_)
  dsimp only [Cpu.set, Cpu.get] at h10 ⊢
  obtain ⟨b10, z10⟩ := adc_small h10 (le_of_eq UInt64.toNat_zero) (le_of_eq UInt64.toNat_zero) (Bool.toNat_le _) (by norm_num)
  rw [z10, Nat.mul_zero, Nat.add_zero] at h10
  simp only [UInt64.toNat_zero, add_zero, zero_add] at h10
  refine wp_mov rfl ?_
  dsimp only [Cpu.set, Cpu.get]
  refine wp_mul rfl (fun l11 u11 c11 o11 h11 => ?_)
  dsimp only [Cpu.set, Cpu.get] at h11 ⊢
  have b11 := mul_hi h11 (u64_lt _) (u64_lt _)
  refine wp_add rfl (fun v12 c12 o12 h12 => ?_)
  dsimp only [Cpu.set, Cpu.get] at h12 ⊢
  refine wp_adc rfl (fun v13 c13 o13 h13 => ?_)
  dsimp only [Cpu.set, Cpu.get] at h13 ⊢
  refine wp_adc rfl (fun v14 c14 o14 h14 => ?_)
  dsimp only [Cpu.set, Cpu.get] at h14 ⊢
  refine wp_mov rfl ?_
  dsimp only [Cpu.set, Cpu.get]
  refine wp_adc rfl (fun v15 c15 o15 h15 => ?_)
  dsimp only [Cpu.set, Cpu.get] at h15 ⊢
  obtain ⟨b15, z15⟩ := adc_small h15 (le_of_eq UInt64.toNat_zero) (le_of_eq UInt64.toNat_zero) (Bool.toNat_le _) (by norm_num)
  rw [z15, Nat.mul_zero, Nat.add_zero] at h15
  simp only [UInt64.toNat_zero, add_zero, zero_add] at h15
  refine wp_mov rfl ?_
  dsimp only [Cpu.set, Cpu.get]
  refine wp_mul rfl (fun l16 u16 c16 o16 h16 => ?_)
  dsimp only [Cpu.set, Cpu.get] at h16 ⊢
  have b16 := mul_hi h16 (u64_lt _) (u64_lt _)
  refine wp_add rfl (fun v17 c17 o17 h17 => ?_)
  dsimp only [Cpu.set, Cpu.get] at h17 ⊢
  refine wp_adc rfl (fun v18 c18 o18 h18 => ?_)
  dsimp only [Cpu.set, Cpu.get] at h18 ⊢
  refine wp_adc rfl (fun v19 c19 o19 h19 => ?_)
  dsimp only [Cpu.set, Cpu.get] at h19 ⊢
  refine wp_mov rfl ?_
  dsimp only [Cpu.set, Cpu.get]
  refine wp_adc rfl (fun v20 c20 o20 h20 => ?_)
  dsimp only [Cpu.set, Cpu.get] at h20 ⊢
  obtain ⟨b20, z20⟩ := adc_small h20 (le_of_eq UInt64.toNat_zero) (le_of_eq UInt64.toNat_zero) (Bool.toNat_le _) (by norm_num)
  rw [z20, Nat.mul_zero, Nat.add_zero] at h20
  simp only [UInt64.toNat_zero, add_zero, zero_add] at h20
  refine wp_mov rfl ?_
  dsimp only [Cpu.set, Cpu.get]
  refine wp_mul rfl (fun l21 u21 c21 o21 h21 => ?_)
  dsimp only [Cpu.set, Cpu.get] at h21 ⊢
  have b21 := mul_hi h21 (u64_lt _) (u64_lt _)
  refine wp_add rfl (fun v22 c22 o22 h22 => ?_)
  dsimp only [Cpu.set, Cpu.get] at h22 ⊢
  refine wp_adc rfl (fun v23 c23 o23 h23 => ?_)
  dsimp only [Cpu.set, Cpu.get] at h23 ⊢
  refine wp_adc rfl (fun v24 c24 o24 h24 => ?_)
  dsimp only [Cpu.set, Cpu.get] at h24 ⊢
  obtain ⟨b24, z24⟩ := adc_small h24 (le_of_eq UInt64.toNat_zero) b20 (Bool.toNat_le _) (by norm_num)
  rw [z24, Nat.mul_zero, Nat.add_zero] at h24
  simp only [UInt64.toNat_zero, add_zero, zero_add] at h24
  refine wp_mov rfl ?_
  dsimp only [Cpu.set, Cpu.get]
  refine wp_mul rfl (fun l25 u25 c25 o25 h25 => ?_)
  dsimp only [Cpu.set, Cpu.get] at h25 ⊢
  have b25 := mul_hi h25 (u64_lt _) (u64_lt _)
  refine wp_add rfl (fun v26 c26 o26 h26 => ?_)
  dsimp only [Cpu.set, Cpu.get] at h26 ⊢
  refine wp_adc rfl (fun v27 c27 o27 h27 => ?_)
  dsimp only [Cpu.set, Cpu.get] at h27 ⊢
  have key : v2.toNat + 2 ^ 64 * v7.toNat + 2 ^ 128 * v12.toNat + 2 ^ 192 * v17.toNat + 2 ^ 256 * v22.toNat + 2 ^ 320 * v26.toNat + 2 ^ 384 * v27.toNat + 2 ^ 448 * c27.toNat = r9.toNat + 2 ^ 64 * r10.toNat + 2 ^ 128 * r11.toNat + 2 ^ 192 * r12.toNat + 2 ^ 256 * r13.toNat + 2 ^ 320 * r14.toNat + (m (rsi + 0x10)).toNat * ((m (rdi + 0)).toNat + 2 ^ 64 * (m (rdi + 8)).toNat + 2 ^ 128 * (m (rdi + 0x10)).toNat + 2 ^ 192 * (m (rdi + 0x18)).toNat + 2 ^ 256 * (m (rdi + 0x20)).toNat + 2 ^ 320 * (m (rdi + 0x28)).toNat) := by
    linear_combination 2 ^ 384 * h27 + 2 ^ 320 * h26 + 2 ^ 320 * h25 + 2 ^ 384 * h24 + 2 ^ 320 * h23 + 2 ^ 256 * h22 + 2 ^ 256 * h21 + 2 ^ 384 * h20 + 2 ^ 320 * h19 + 2 ^ 256 * h18 + 2 ^ 192 * h17 + 2 ^ 192 * h16 + 2 ^ 320 * h15 + 2 ^ 256 * h14 + 2 ^ 192 * h13 + 2 ^ 128 * h12 + 2 ^ 128 * h11 + 2 ^ 256 * h10 + 2 ^ 192 * h9 + 2 ^ 128 * h8 + 2 ^ 64 * h7 + 2 ^ 64 * h6 + 2 ^ 192 * h5 + 2 ^ 128 * h4 + 2 ^ 64 * h3 + h2 + h1
  rw [row_top key (u6_lt (r9) (r10) (r11) (r12) (r13) (r14)) (u64_lt _) (u6_lt (m (rdi + 0)) (m (rdi + 8)) (m (rdi + 0x10)) (m (rdi + 0x18)) (m (rdi + 0x20)) (m (rdi + 0x28))), Nat.mul_zero, Nat.add_zero] at key
  exact H v2 v7 v12 v17 v20 v22 l25 u25 v26 v27 c27 o27 key

theorem multiply_row3_wp {is : List Instr} {Q : Cpu → Prop}
    {rax rbx rcx rdx rsi rdi r10 r11 r12 r13 r14 r15 t2 t1 t0 z P5 P4 P3 P2 P1 P0 N s0 s1 s2 s3 s4 s5 : UInt64} {cf of : Bool} {m : UInt64 → UInt64}
    (H : ∀ (v2 : UInt64) (v7 : UInt64) (v12 : UInt64) (v17 : UInt64) (v20 : UInt64) (v22 : UInt64) (l25 : UInt64) (u25 : UInt64) (v26 : UInt64) (v27 : UInt64) (c27 : Bool) (o27 : Bool), (v2.toNat + 2 ^ 64 * v7.toNat + 2 ^ 128 * v12.toNat + 2 ^ 192 * v17.toNat + 2 ^ 256 * v22.toNat + 2 ^ 320 * v26.toNat + 2 ^ 384 * v27.toNat = r10.toNat + 2 ^ 64 * r11.toNat + 2 ^ 128 * r12.toNat + 2 ^ 192 * r13.toNat + 2 ^ 256 * r14.toNat + 2 ^ 320 * r15.toNat + (m (rsi + 0x18)).toNat * ((m (rdi + 0)).toNat + 2 ^ 64 * (m (rdi + 8)).toNat + 2 ^ 128 * (m (rdi + 0x10)).toNat + 2 ^ 192 * (m (rdi + 0x18)).toNat + 2 ^ 256 * (m (rdi + 0x20)).toNat + 2 ^ 320 * (m (rdi + 0x28)).toNat)) → wp is Q ⟨l25, v20, m (rsi + 0x18), u25, rsi, rdi, 0xffffffffffffffc8, v27, 0, v2, v7, v12, v17, v22, v26, c27, o27, [t2, t1, t0, z, P5, P4, P3, P2, P1, P0, N, s0, s1, s2, s3, s4, s5], m⟩) :
    wp (Asm.multiply_row3 ++ is) Q ⟨rax, rbx, rcx, rdx, rsi, rdi, 0xffffffffffffffc8, 0, 0, r10, r11, r12, r13, r14, r15, cf, of, [t2, t1, t0, z, P5, P4, P3, P2, P1, P0, N, s0, s1, s2, s3, s4, s5], m⟩ := by
  simp only [Asm.multiply_row3, List.cons_append, List.nil_append]
  refine wp_mov rfl ?_
  dsimp only [Cpu.set, Cpu.get]
  refine wp_mov rfl ?_
  dsimp only [Cpu.set, Cpu.get]
  refine wp_mov rfl ?_
  dsimp only [Cpu.set, Cpu.get]
  refine wp_mul rfl (fun l1 u1 c1 o1 h1 => ?_)
  dsimp only [Cpu.set, Cpu.get] at h1 ⊢
  have b1 := mul_hi h1 (u64_lt _) (u64_lt _)
  refine wp_add rfl (fun v2 c2 o2 h2 => ?_)
  dsimp only [Cpu.set, Cpu.get] at h2 ⊢
  refine wp_adc rfl (fun v3 c3 o3 h3 => ?_)
  dsimp only [Cpu.set, Cpu.get] at h3 ⊢
  refine wp_adc rfl (fun v4 c4 o4 h4 => ?_)
  dsimp only [Cpu.set, Cpu.get] at h4 ⊢
  simp only [UInt64.toNat_zero, add_zero, zero_add] at h4
  refine wp_adc rfl (fun v5 c5 o5 h5 => ?_)
  dsimp only [Cpu.set, Cpu.get] at h5 ⊢
  obtain ⟨b5, z5⟩ := adc_small h5 (le_of_eq UInt64.toNat_zero) (le_of_eq UInt64.toNat_zero) (Bool.toNat_le _) (by norm_num)
  rw [z5, Nat.mul_zero, Nat.add_zero] at h5
  simp only [UInt64.toNat_zero, add_zero, zero_add] at h5
  refine wp_mov rfl ?_
  dsimp only [Cpu.set, Cpu.get]
  refine wp_mul rfl (fun l6 u6 c6 o6 h6 => ?_)
  dsimp only [Cpu.set, Cpu.get] at h6 ⊢
  have b6 := mul_hi h6 (u64_lt _) (u64_lt _)
  refine wp_add rfl (fun v7 c7 o7 h7 => ?_)
  dsimp only [Cpu.set, Cpu.get] at h7 ⊢
  refine wp_adc rfl (fun v8 c8 o8 h8 => ?_)
  dsimp only [Cpu.set, Cpu.get] at h8 ⊢
  refine wp_adc rfl (fun v9 c9 o9 h9 => ?_)
  dsimp only [Cpu.set, Cpu.get] at h9 ⊢
  refine wp_mov rfl ?_
  dsimp only [Cpu.set, Cpu.get]
  refine wp_adc rfl (fun v10 c10 o10 h10 => ?_)
  dsimp only [Cpu.set, Cpu.get] at h10 ⊢
  obtain ⟨b10, z10⟩ := adc_small h10 (le_of_eq UInt64.toNat_zero) (le_of_eq UInt64.toNat_zero) (Bool.toNat_le _) (by norm_num)
  rw [z10, Nat.mul_zero, Nat.add_zero] at h10
  simp only [UInt64.toNat_zero, add_zero, zero_add] at h10
  refine wp_mov rfl ?_
  dsimp only [Cpu.set, Cpu.get]
  refine wp_mul rfl (fun l11 u11 c11 o11 h11 => ?_)
  dsimp only [Cpu.set, Cpu.get] at h11 ⊢
  have b11 := mul_hi h11 (u64_lt _) (u64_lt _)
  refine wp_add rfl (fun v12 c12 o12 h12 => ?_)
  dsimp only [Cpu.set, Cpu.get] at h12 ⊢
  refine wp_adc rfl (fun v13 c13 o13 h13 => ?_)
  dsimp only [Cpu.set, Cpu.get] at h13 ⊢
  refine wp_adc rfl (fun v14 c14 o14 h14 => ?_)
  dsimp only [Cpu.set, Cpu.get] at h14 ⊢
  refine wp_mov rfl ?_
  dsimp only [Cpu.set, Cpu.get]
  refine wp_adc rfl (fun v15 c15 o15 h15 => ?_)
  dsimp only [Cpu.set, Cpu.get] at h15 ⊢
  obtain ⟨b15, z15⟩ := adc_small h15 (le_of_eq UInt64.toNat_zero) (le_of_eq UInt64.toNat_zero) (Bool.toNat_le _) (by norm_num)
  rw [z15, Nat.mul_zero, Nat.add_zero] at h15
  simp only [UInt64.toNat_zero, add_zero, zero_add] at h15
  refine wp_mov rfl ?_
  dsimp only [Cpu.set, Cpu.get]
  refine wp_mul rfl (fun l16 u16 c16 o16 h16 => ?_)
  dsimp only [Cpu.set, Cpu.get] at h16 ⊢
  have b16 := mul_hi h16 (u64_lt _) (u64_lt _)
  refine wp_add rfl (fun v17 c17 o17 h17 => ?_)
  dsimp only [Cpu.set, Cpu.get] at h17 ⊢
  refine wp_adc rfl (fun v18 c18 o18 h18 => ?_)
  dsimp only [Cpu.set, Cpu.get] at h18 ⊢
  refine wp_adc rfl (fun v19 c19 o19 h19 => ?_)
  dsimp only [Cpu.set, Cpu.get] at h19 ⊢
  refine wp_mov rfl ?_
  dsimp only [Cpu.set, Cpu.get]
  refine wp_adc rfl (fun v20 c20 o20 h20 => ?_)
  dsimp only [Cpu.set, Cpu.get] at h20 ⊢
  obtain ⟨b20, z20⟩ := adc_small h20 (le_of_eq UInt64.toNat_zero) (le_of_eq UInt64.toNat_zero) (Bool.toNat_le _) (by norm_num)
  rw [z20, Nat.mul_zero, Nat.add_zero] at h20
  simp only [UInt64.toNat_zero, add_zero, zero_add] at h20
  refine wp_mov rfl ?_
  dsimp only [Cpu.set, Cpu.get]
  refine wp_mul rfl (fun l21 u21 c21 o21 h21 => ?_)
  dsimp only [Cpu.set, Cpu.get] at h21 ⊢
  have b21 := mul_hi h21 (u64_lt _) (u64_lt _)
  refine wp_add rfl (fun v22 c22 o22 h22 => ?_)
  dsimp only [Cpu.set, Cpu.get] at h22 ⊢
  refine wp_adc rfl (fun v23 c23 o23 h23 => ?_)
  dsimp only [Cpu.set, Cpu.get] at h23 ⊢
  refine wp_adc rfl (fun v24 c24 o24 h24 => ?_)
  dsimp only [Cpu.set, Cpu.get] at h24 ⊢
  obtain ⟨b24, z24⟩ := adc_small h24 (le_of_eq UInt64.toNat_zero) b20 (Bool.toNat_le _) (by norm_num)
  rw [z24, Nat.mul_zero, Nat.add_zero] at h24
  simp only [UInt64.toNat_zero, add_zero, zero_add] at h24
  refine wp_mov rfl ?_
  dsimp only [Cpu.set, Cpu.get]
  refine wp_mul rfl (fun l25 u25 c25 o25 h25 => ?_)
  dsimp only [Cpu.set, Cpu.get] at h25 ⊢
  have b25 := mul_hi h25 (u64_lt _) (u64_lt _)
  refine wp_add rfl (fun v26 c26 o26 h26 => ?_)
  dsimp only [Cpu.set, Cpu.get] at h26 ⊢
  refine wp_adc rfl (fun v27 c27 o27 h27 => ?_)
  dsimp only [Cpu.set, Cpu.get] at h27 ⊢
  have key : v2.toNat + 2 ^ 64 * v7.toNat + 2 ^ 128 * v12.toNat + 2 ^ 192 * v17.toNat + 2 ^ 256 * v22.toNat + 2 ^ 320 * v26.toNat + 2 ^ 384 * v27.toNat + 2 ^ 448 * c27.toNat = r10.toNat + 2 ^ 64 * r11.toNat + 2 ^ 128 * r12.toNat + 2 ^ 192 * r13.toNat + 2 ^ 256 * r14.toNat + 2 ^ 320 * r15.toNat + (m (rsi + 0x18)).toNat * ((m (rdi + 0)).toNat + 2 ^ 64 * (m (rdi + 8)).toNat + 2 ^ 128 * (m (rdi + 0x10)).toNat + 2 ^ 192 * (m (rdi + 0x18)).toNat + 2 ^ 256 * (m (rdi + 0x20)).toNat + 2 ^ 320 * (m (rdi + 0x28)).toNat) := by
    linear_combination 2 ^ 384 * h27 + 2 ^ 320 * h26 + 2 ^ 320 * h25 + 2 ^ 384 * h24 + 2 ^ 320 * h23 + 2 ^ 256 * h22 + 2 ^ 256 * h21 + 2 ^ 384 * h20 + 2 ^ 320 * h19 + 2 ^ 256 * h18 + 2 ^ 192 * h17 + 2 ^ 192 * h16 + 2 ^ 320 * h15 + 2 ^ 256 * h14 + 2 ^ 192 * h13 + 2 ^ 128 * h12 + 2 ^ 128 * h11 + 2 ^ 256 * h10 + 2 ^ 192 * h9 + 2 ^ 128 * h8 + 2 ^ 64 * h7 + 2 ^ 64 * h6 + 2 ^ 192 * h5 + 2 ^ 128 * h4 + 2 ^ 64 * h3 + h2 + h1
  rw [row_top key (u6_lt (r10) (r11) (r12) (r13) (r14) (r15)) (u64_lt _) (u6_lt (m (rdi + 0)) (m (rdi + 8)) (m (rdi + 0x10)) (m (rdi + 0x18)) (m (rdi + 0x20)) (m (rdi + 0x28))), Nat.mul_zero, Nat.add_zero] at key
  exact H v2 v7 v12 v17 v20 v22 l25 u25 v26 v27 c27 o27 key

theorem multiply_row4_wp {is : List Instr} {Q : Cpu → Prop}
    {rax rbx rcx rdx rsi rdi r8 r10 r11 r12 r13 r14 r15 t2 t1 t0 z P5 P4 P3 P2 P1 P0 N s0 s1 s2 s3 s4 s5 : UInt64} {cf of : Bool} {m : UInt64 → UInt64}
    (H : ∀ (v2 : UInt64) (v7 : UInt64) (v12 : UInt64) (v17 : UInt64) (v20 : UInt64) (v22 : UInt64) (l25 : UInt64) (u25 : UInt64) (v26 : UInt64) (v27 : UInt64) (c27 : Bool) (o27 : Bool), (v2.toNat + 2 ^ 64 * v7.toNat + 2 ^ 128 * v12.toNat + 2 ^ 192 * v17.toNat + 2 ^ 256 * v22.toNat + 2 ^ 320 * v26.toNat + 2 ^ 384 * v27.toNat = r11.toNat + 2 ^ 64 * r12.toNat + 2 ^ 128 * r13.toNat + 2 ^ 192 * r14.toNat + 2 ^ 256 * r15.toNat + 2 ^ 320 * r8.toNat + (m (rsi + 0x20)).toNat * ((m (rdi + 0)).toNat + 2 ^ 64 * (m (rdi + 8)).toNat + 2 ^ 128 * (m (rdi + 0x10)).toNat + 2 ^ 192 * (m (rdi + 0x18)).toNat + 2 ^ 256 * (m (rdi + 0x20)).toNat + 2 ^ 320 * (m (rdi + 0x28)).toNat)) → wp is Q ⟨l25, v20, m (rsi + 0x20), u25, rsi, rdi, 0xffffffffffffffc8, v26, v27, r10, v2, v7, v12, v17, v22, c27, o27, [t2, t1, t0, z, P5, P4, P3, P2, P1, P0, N, s0, s1, s2, s3, s4, s5], m⟩) :
    wp (Asm.multiply_row4 ++ is) Q ⟨rax, rbx, rcx, rdx, rsi, rdi, 0xffffffffffffffc8, r8, 0, r10, r11, r12, r13, r14, r15, cf, of, [t2, t1, t0, z, P5, P4, P3, P2, P1, P0, N, s0, s1, s2, s3, s4, s5], m⟩ := by
  simp only [Asm.multiply_row4, List.cons_append, List.nil_append]
  refine wp_mov rfl ?_
  dsimp only [Cpu.set, Cpu.get]
  refine wp_mov rfl ?_
  dsimp only [Cpu.set, Cpu.get]
  refine wp_mov rfl ?_
  dsimp only [Cpu.set, Cpu.get]
  refine wp_mul rfl (fun l1 u1 c1 o1 h1 => ?_)
  dsimp only [Cpu.set, Cpu.get] at h1 ⊢
  have b1 := mul_hi h1 (u64_lt _) (u64_lt _)
  refine wp_add rfl (fun v2 c2 o2 h2 => ?_)
  dsimp only [Cpu.set, Cpu.get] at h2 ⊢
  refine wp_adc rfl (fun v3 c3 o3 h3 => ?_)
  dsimp only [Cpu.set, Cpu.get] at h3 ⊢
  refine wp_adc rfl (fun v4 c4 o4 h4 => ?_)
  dsimp only [Cpu.set, Cpu.get] at h4 ⊢
  simp only [UInt64.toNat_zero, add_zero, zero_add] at h4
  refine wp_adc rfl (fun v5 c5 o5 h5 => ?_)
  dsimp only [Cpu.set, Cpu.get] at h5 ⊢
  obtain ⟨b5, z5⟩ := adc_small h5 (le_of_eq UInt64.toNat_zero) (le_of_eq UInt64.toNat_zero) (Bool.toNat_le _) (by norm_num)
  rw [z5, Nat.mul_zero, Nat.add_zero] at h5
  simp only [UInt64.toNat_zero, add_zero, zero_add] at h5
  refine wp_mov rfl ?_
  dsimp only [Cpu.set, Cpu.get]
  refine wp_mul rfl (fun l6 u6 c6 o6 h6 => ?_)
  dsimp only [Cpu.set, Cpu.get] at h6 ⊢
  have b6 := mul_hi h6 (u64_lt _) (u64_lt _)
  refine wp_add rfl (fun v7 c7 o7 h7 => ?_)
  dsimp only [Cpu.set, Cpu.get] at h7 ⊢
  refine wp_adc rfl (fun v8 c8 o8 h8 => ?_)
  dsimp only [Cpu.set, Cpu.get] at h8 ⊢
  refine wp_adc rfl (fun v9 c9 o9 h9 => ?_)
  dsimp only [Cpu.set, Cpu.get] at h9 ⊢
  refine wp_mov rfl ?_
  dsimp only [Cpu.set, Cpu.get]
  refine wp_adc rfl (fun v10 c10 o10 h10 => ?_)
  dsimp only [Cpu.set, Cpu.get] at h10 ⊢
  obtain ⟨b10, z10⟩ := adc_small h10 (le_of_eq UInt64.toNat_zero) (le_of_eq UInt64.toNat_zero) (Bool.toNat_le _) (by norm_num)
  rw [z10, Nat.mul_zero, Nat.add_zero] at h10
  simp only [UInt64.toNat_zero, add_zero, zero_add] at h10
  refine wp_mov rfl ?_
  dsimp only [Cpu.set, Cpu.get]
  refine wp_mul rfl (fun l11 u11 c11 o11 h11 => ?_)
  dsimp only [Cpu.set, Cpu.get] at h11 ⊢
  have b11 := mul_hi h11 (u64_lt _) (u64_lt _)
  refine wp_add rfl (fun v12 c12 o12 h12 => ?_)
  dsimp only [Cpu.set, Cpu.get] at h12 ⊢
  refine wp_adc rfl (fun v13 c13 o13 h13 => ?_)
  dsimp only [Cpu.set, Cpu.get] at h13 ⊢
  refine wp_adc rfl (fun v14 c14 o14 h14 => ?_)
  dsimp only [Cpu.set, Cpu.get] at h14 ⊢
  refine wp_mov rfl ?_
  dsimp only [Cpu.set, Cpu.get]
  refine wp_adc rfl (fun v15 c15 o15 h15 => ?_)
  dsimp only [Cpu.set, Cpu.get] at h15 ⊢
  obtain ⟨b15, z15⟩ := adc_small h15 (le_of_eq UInt64.toNat_zero) (le_of_eq UInt64.toNat_zero) (Bool.toNat_le _) (by norm_num)
  rw [z15, Nat.mul_zero, Nat.add_zero] at h15
  simp only [UInt64.toNat_zero, add_zero, zero_add] at h15
  refine wp_mov rfl ?_
  dsimp only [Cpu.set, Cpu.get]
  refine wp_mul rfl (fun l16 u16 c16 o16 h16 => ?_)
  dsimp only [Cpu.set, Cpu.get] at h16 ⊢
  have b16 := mul_hi h16 (u64_lt _) (u64_lt _)
  refine wp_add rfl (fun v17 c17 o17 h17 => ?_)
  dsimp only [Cpu.set, Cpu.get] at h17 ⊢
  refine wp_adc rfl (fun v18 c18 o18 h18 => ?_)
  dsimp only [Cpu.set, Cpu.get] at h18 ⊢
  refine wp_adc rfl (fun v19 c19 o19 h19 => ?_)
  dsimp only [Cpu.set, Cpu.get] at h19 ⊢
  refine wp_mov rfl ?_
  dsimp only [Cpu.set, Cpu.get]
  refine wp_adc rfl (fun v20 c20 o20 h20 => ?_)
  dsimp only [Cpu.set, Cpu.get] at h20 ⊢
  obtain ⟨b20, z20⟩ := adc_small h20 (le_of_eq UInt64.toNat_zero) (le_of_eq UInt64.toNat_zero) (Bool.toNat_le _) (by norm_num)
  rw [z20, Nat.mul_zero, Nat.add_zero] at h20
  simp only [UInt64.toNat_zero, add_zero, zero_add] at h20
  refine wp_mov rfl ?_
  dsimp only [Cpu.set, Cpu.get]
  refine wp_mul rfl (fun l21 u21 c21 o21 h21 => ?_)
  dsimp only [Cpu.set, Cpu.get] at h21 ⊢
  have b21 := mul_hi h21 (u64_lt _) (u64_lt _)
  refine wp_add rfl (fun v22 c22 o22 h22 => ?_)
  dsimp only [Cpu.set, Cpu.get] at h22 ⊢
  refine wp_adc rfl (fun v23 c23 o23 h23 => ?_)
  dsimp only [Cpu.set, Cpu.get] at h23 ⊢
  refine wp_adc rfl (fun v24 c24 o24 h24 => ?_)
  dsimp only [Cpu.set, Cpu.get] at h24 ⊢
  obtain ⟨b24, z24⟩ := adc_small h24 (le_of_eq UInt64.toNat_zero) b20 (Bool.toNat_le _) (by norm_num)
  rw [z24, Nat.mul_zero, Nat.add_zero] at h24
  simp only [UInt64.toNat_zero, add_zero, zero_add] at h24
  refine wp_mov rfl ?_
  dsimp only [Cpu.set, Cpu.get]
  refine wp_mul rfl (fun l25 u25 c25 o25 h25 => ?_)
  dsimp only [Cpu.set, Cpu.get] at h25 ⊢
  have b25 := mul_hi h25 (u64_lt _) (u64_lt _)
  refine wp_add rfl (fun v26 c26 o26 h26 => ?_)
  dsimp only [Cpu.set, Cpu.get] at h26 ⊢
  refine wp_adc rfl (fun v27 c27 o27 h27 => ?_)
  dsimp only [Cpu.set, Cpu.get] at h27 ⊢
  have key : v2.toNat + 2 ^ 64 * v7.toNat + 2 ^ 128 * v12.toNat + 2 ^ 192 * v17.toNat + 2 ^ 256 * v22.toNat + 2 ^ 320 * v26.toNat + 2 ^ 384 * v27.toNat + 2 ^ 448 * c27.toNat = r11.toNat + 2 ^ 64 * r12.toNat + 2 ^ 128 * r13.toNat + 2 ^ 192 * r14.toNat + 2 ^ 256 * r15.toNat + 2 ^ 320 * r8.toNat + (m (rsi + 0x20)).toNat * ((m (rdi + 0)).toNat + 2 ^ 64 * (m (rdi + 8)).toNat + 2 ^ 128 * (m (rdi + 0x10)).toNat + 2 ^ 192 * (m (rdi + 0x18)).toNat + 2 ^ 256 * (m (rdi + 0x20)).toNat + 2 ^ 320 * (m (rdi + 0x28)).toNat) := by
    linear_combination 2 ^ 384 * h27 + 2 ^ 320 * h26 + 2 ^ 320 * h25 + 2 ^ 384 * h24 + 2 ^ 320 * h23 + 2 ^ 256 * h22 + 2 ^ 256 * h21 + 2 ^ 384 * h20 + 2 ^ 320 * h19 + 2 ^ 256 * h18 + 2 ^ 192 * h17 + 2 ^ 192 * h16 + 2 ^ 320 * h15 + 2 ^ 256 * h14 + 2 ^ 192 * h13 + 2 ^ 128 * h12 + 2 ^ 128 * h11 + 2 ^ 256 * h10 + 2 ^ 192 * h9 + 2 ^ 128 * h8 + 2 ^ 64 * h7 + 2 ^ 64 * h6 + 2 ^ 192 * h5 + 2 ^ 128 * h4 + 2 ^ 64 * h3 + h2 + h1
  rw [row_top key (u6_lt (r11) (r12) (r13) (r14) (r15) (r8)) (u64_lt _) (u6_lt (m (rdi + 0)) (m (rdi + 8)) (m (rdi + 0x10)) (m (rdi + 0x18)) (m (rdi + 0x20)) (m (rdi + 0x28))), Nat.mul_zero, Nat.add_zero] at key
  exact H v2 v7 v12 v17 v20 v22 l25 u25 v26 v27 c27 o27 key

theorem multiply_row5_wp {is : List Instr} {Q : Cpu → Prop}
    {rax rbx rcx rdx rsi rdi r8 r9 r10 r11 r12 r13 r14 r15 t2 t1 t0 z P5 P4 P3 P2 P1 P0 N s0 s1 s2 s3 s4 s5 : UInt64} {cf of : Bool} {m : UInt64 → UInt64}
    (H : ∀ (v2 : UInt64) (v7 : UInt64) (v12 : UInt64) (v17 : UInt64) (v22 : UInt64) (l25 : UInt64) (u25 : UInt64) (v26 : UInt64) (v27 : UInt64) (c27 : Bool) (o27 : Bool), (v2.toNat + 2 ^ 64 * v7.toNat + 2 ^ 128 * v12.toNat + 2 ^ 192 * v17.toNat + 2 ^ 256 * v22.toNat + 2 ^ 320 * v26.toNat + 2 ^ 384 * v27.toNat = r12.toNat + 2 ^ 64 * r13.toNat + 2 ^ 128 * r14.toNat + 2 ^ 192 * r15.toNat + 2 ^ 256 * r8.toNat + 2 ^ 320 * r9.toNat + (m (rsi + 0x28)).toNat * ((m (rdi + 0)).toNat + 2 ^ 64 * (m (rdi + 8)).toNat + 2 ^ 128 * (m (rdi + 0x10)).toNat + 2 ^ 192 * (m (rdi + 0x18)).toNat + 2 ^ 256 * (m (rdi + 0x20)).toNat + 2 ^ 320 * (m (rdi + 0x28)).toNat)) → wp is Q ⟨l25, v27, t0, u25, t2, t1, 0xffffffffffffffc8, v22, v26, r10, r11, v2, v7, v12, v17, c27, o27, [v26, v27, z, P5, P4, P3, P2, P1, P0, N, s0, s1, s2, s3, s4, s5], m⟩) :
    wp (Asm.multiply_row5 ++ is) Q ⟨rax, rbx, rcx, rdx, rsi, rdi, 0xffffffffffffffc8, r8, r9, r10, r11, r12, r13, r14, r15, cf, of, [t2, t1, t0, z, P5, P4, P3, P2, P1, P0, N, s0, s1, s2, s3, s4, s5], m⟩ := by
  simp only [Asm.multiply_row5, List.cons_append, List.nil_append]
  refine wp_mov rfl ?_
  dsimp only [Cpu.set, Cpu.get]
  refine wp_mov rfl ?_
  dsimp only [Cpu.set, Cpu.get]
  refine wp_mov rfl ?_
  dsimp only [Cpu.set, Cpu.get]
  refine wp_mul rfl (fun l1 u1 c1 o1 h1 => ?_)
  dsimp only [Cpu.set, Cpu.get] at h1 ⊢
  have b1 := mul_hi h1 (u64_lt _) (u64_lt _)
  refine wp_add rfl (fun v2 c2 o2 h2 => ?_)
  dsimp only [Cpu.set, Cpu.get] at h2 ⊢
  refine wp_adc rfl (fun v3 c3 o3 h3 => ?_)
  dsimp only [Cpu.set, Cpu.get] at h3 ⊢
  refine wp_adc rfl (fun v4 c4 o4 h4 => ?_)
  dsimp only [Cpu.set, Cpu.get] at h4 ⊢
  simp only [UInt64.toNat_zero, add_zero, zero_add] at h4
  refine wp_adc rfl (fun v5 c5 o5 h5 => ?_)
  dsimp only [Cpu.set, Cpu.get] at h5 ⊢
  obtain ⟨b5, z5⟩ := adc_small h5 (le_of_eq UInt64.toNat_zero) (le_of_eq UInt64.toNat_zero) (Bool.toNat_le _) (by norm_num)
  rw [z5, Nat.mul_zero, Nat.add_zero] at h5
  simp only [UInt64.toNat_zero, add_zero, zero_add] at h5
  refine wp_mov rfl ?_
  dsimp only [Cpu.set, Cpu.get]
  refine wp_mul rfl (fun l6 u6 c6 o6 h6 => ?_)
  dsimp only [Cpu.set, Cpu.get] at h6 ⊢
  have b6 := mul_hi h6 (u64_lt _) (u64_lt _)
  refine wp_add rfl (fun v7 c7 o7 h7 => ?_)
  dsimp only [Cpu.set, Cpu.get] at h7 ⊢
  refine wp_adc rfl (fun v8 c8 o8 h8 => ?_)
  dsimp only [Cpu.set, Cpu.get] at h8 ⊢
  refine wp_adc rfl (fun v9 c9 o9 h9 => ?_)
  dsimp only [Cpu.set, Cpu.get] at h9 ⊢
  refine wp_mov rfl ?_
  dsimp only [Cpu.set, Cpu.get]
  refine wp_adc rfl (fun v10 c10 o10 h10 => ?_)
  dsimp only [Cpu.set, Cpu.get] at h10 ⊢
  obtain ⟨b10, z10⟩ := adc_small h10 (le_of_eq UInt64.toNat_zero) (le_of_eq UInt64.toNat_zero) (Bool.toNat_le _) (by norm_num)
  rw [z10, Nat.mul_zero, Nat.add_zero] at h10
  simp only [UInt64.toNat_zero, add_zero, zero_add] at h10
  refine wp_mov rfl ?_
  dsimp only [Cpu.set, Cpu.get]
  refine wp_mul rfl (fun l11 u11 c11 o11 h11 => ?_)
  dsimp only [Cpu.set, Cpu.get] at h11 ⊢
  have b11 := mul_hi h11 (u64_lt _) (u64_lt _)
  refine wp_add rfl (fun v12 c12 o12 h12 => ?_)
  dsimp only [Cpu.set, Cpu.get] at h12 ⊢
  refine wp_adc rfl (fun v13 c13 o13 h13 => ?_)
  dsimp only [Cpu.set, Cpu.get] at h13 ⊢
  refine wp_adc rfl (fun v14 c14 o14 h14 => ?_)
  dsimp only [Cpu.set, Cpu.get] at h14 ⊢
  refine wp_mov rfl ?_
  dsimp only [Cpu.set, Cpu.get]
  refine wp_adc rfl (fun v15 c15 o15 h15 => ?_)
  dsimp only [Cpu.set, Cpu.get] at h15 ⊢
  obtain ⟨b15, z15⟩ := adc_small h15 (le_of_eq UInt64.toNat_zero) (le_of_eq UInt64.toNat_zero) (Bool.toNat_le _) (by norm_num)
  rw [z15, Nat.mul_zero, Nat.add_zero] at h15
  simp only [UInt64.toNat_zero, add_zero, zero_add] at h15
  refine wp_mov rfl ?_
  dsimp only [Cpu.set, Cpu.get]
  refine wp_mul rfl (fun l16 u16 c16 o16 h16 => ?_)
  dsimp only [Cpu.set, Cpu.get] at h16 ⊢
  have b16 := mul_hi h16 (u64_lt _) (u64_lt _)
  refine wp_add rfl (fun v17 c17 o17 h17 => ?_)
  dsimp only [Cpu.set, Cpu.get] at h17 ⊢
  refine wp_adc rfl (fun v18 c18 o18 h18 => ?_)
  dsimp only [Cpu.set, Cpu.get] at h18 ⊢
  refine wp_adc rfl (fun v19 c19 o19 h19 => ?_)
  dsimp only [Cpu.set, Cpu.get] at h19 ⊢
  refine wp_mov rfl ?_
  dsimp only [Cpu.set, Cpu.get]
  refine wp_adc rfl (fun v20 c20 o20 h20 => ?_)
  dsimp only [Cpu.set, Cpu.get] at h20 ⊢
  obtain ⟨b20, z20⟩ := adc_small h20 (le_of_eq UInt64.toNat_zero) (le_of_eq UInt64.toNat_zero) (Bool.toNat_le _) (by norm_num)
  rw [z20, Nat.mul_zero, Nat.add_zero] at h20
  simp only [UInt64.toNat_zero, add_zero, zero_add] at h20
  refine wp_mov rfl ?_
  dsimp only [Cpu.set, Cpu.get]
  refine wp_mul rfl (fun l21 u21 c21 o21 h21 => ?_)
  dsimp only [Cpu.set, Cpu.get] at h21 ⊢
  have b21 := mul_hi h21 (u64_lt _) (u64_lt _)
  refine wp_add rfl (fun v22 c22 o22 h22 => ?_)
  dsimp only [Cpu.set, Cpu.get] at h22 ⊢
  refine wp_adc rfl (fun v23 c23 o23 h23 => ?_)
  dsimp only [Cpu.set, Cpu.get] at h23 ⊢
  refine wp_adc rfl (fun v24 c24 o24 h24 => ?_)
  dsimp only [Cpu.set, Cpu.get] at h24 ⊢
  obtain ⟨b24, z24⟩ := adc_small h24 b20 (le_of_eq UInt64.toNat_zero) (Bool.toNat_le _) (by norm_num)
  rw [z24, Nat.mul_zero, Nat.add_zero] at h24
  simp only [UInt64.toNat_zero, add_zero, zero_add] at h24
  refine wp_mov rfl ?_
  dsimp only [Cpu.set, Cpu.get]
  refine wp_mul rfl (fun l25 u25 c25 o25 h25 => ?_)
  dsimp only [Cpu.set, Cpu.get] at h25 ⊢
  have b25 := mul_hi h25 (u64_lt _) (u64_lt _)
  refine wp_add rfl (fun v26 c26 o26 h26 => ?_)
  dsimp only [Cpu.set, Cpu.get] at h26 ⊢
  refine wp_adc rfl (fun v27 c27 o27 h27 => ?_)
  dsimp only [Cpu.set, Cpu.get] at h27 ⊢
  refine wp_pop rfl ?_
  dsimp only [Cpu.set]
  refine wp_pop rfl ?_
  dsimp only [Cpu.set]
  refine wp_pop rfl ?_
  dsimp only [Cpu.set]
  refine wp_push ?_
  dsimp only [Cpu.get]
  refine wp_push ?_
  dsimp only [Cpu.get]
  have key : v2.toNat + 2 ^ 64 * v7.toNat + 2 ^ 128 * v12.toNat + 2 ^ 192 * v17.toNat + 2 ^ 256 * v22.toNat + 2 ^ 320 * v26.toNat + 2 ^ 384 * v27.toNat + 2 ^ 448 * c27.toNat = r12.toNat + 2 ^ 64 * r13.toNat + 2 ^ 128 * r14.toNat + 2 ^ 192 * r15.toNat + 2 ^ 256 * r8.toNat + 2 ^ 320 * r9.toNat + (m (rsi + 0x28)).toNat * ((m (rdi + 0)).toNat + 2 ^ 64 * (m (rdi + 8)).toNat + 2 ^ 128 * (m (rdi + 0x10)).toNat + 2 ^ 192 * (m (rdi + 0x18)).toNat + 2 ^ 256 * (m (rdi + 0x20)).toNat + 2 ^ 320 * (m (rdi + 0x28)).toNat) := by
    linear_combination 2 ^ 384 * h27 + 2 ^ 320 * h26 + 2 ^ 320 * h25 + 2 ^ 384 * h24 + 2 ^ 320 * h23 + 2 ^ 256 * h22 + 2 ^ 256 * h21 + 2 ^ 384 * h20 + 2 ^ 320 * h19 + 2 ^ 256 * h18 + 2 ^ 192 * h17 + 2 ^ 192 * h16 + 2 ^ 320 * h15 + 2 ^ 256 * h14 + 2 ^ 192 * h13 + 2 ^ 128 * h12 + 2 ^ 128 * h11 + 2 ^ 256 * h10 + 2 ^ 192 * h9 + 2 ^ 128 * h8 + 2 ^ 64 * h7 + 2 ^ 64 * h6 + 2 ^ 192 * h5 + 2 ^ 128 * h4 + 2 ^ 64 * h3 + h2 + h1
  rw [row_top key (u6_lt (r12) (r13) (r14) (r15) (r8) (r9)) (u64_lt _) (u6_lt (m (rdi + 0)) (m (rdi + 8)) (m (rdi + 0x10)) (m (rdi + 0x18)) (m (rdi + 0x20)) (m (rdi + 0x28))), Nat.mul_zero, Nat.add_zero] at key
  exact H v2 v7 v12 v17 v22 l25 u25 v26 v27 c27 o27 key

theorem multiply_mont0_wp {is : List Instr} {Q : Cpu → Prop}
    {rax rbx rcx rdx rsi rdi r8 r9 r10 r11 r12 r13 r14 r15 t1 t0 z P5 P4 P3 P2 P1 P0 N s0 s1 s2 s3 s4 s5 : UInt64} {cf of : Bool} {m : UInt64 → UInt64}
    (hN : (N.toNat * P0.toNat + 1) % 2 ^ 64 = 0)
    (hP5 : P5.toNat ≤ 2 ^ 61)
    (H : ∀ (l1 : UInt64) (v8 : UInt64) (v13 : UInt64) (v18 : UInt64) (v23 : UInt64) (v24 : UInt64) (l25 : UInt64) (v27 : UInt64) (v28 : UInt64) (v29 : UInt64) (v30 : UInt64) (c30 : Bool) (o30 : Bool), (2 ^ 64 * v8.toNat + 2 ^ 128 * v13.toNat + 2 ^ 192 * v18.toNat + 2 ^ 256 * v23.toNat + 2 ^ 320 * v28.toNat + 2 ^ 384 * v29.toNat + 2 ^ 448 * v30.toNat = rcx.toNat + 2 ^ 64 * rdi.toNat + 2 ^ 128 * rsi.toNat + 2 ^ 192 * r10.toNat + 2 ^ 256 * r11.toNat + 2 ^ 320 * r12.toNat + 2 ^ 384 * r13.toNat + l1.toNat * (P0.toNat + 2 ^ 64 * P1.toNat + 2 ^ 128 * P2.toNat + 2 ^ 192 * P3.toNat + 2 ^ 256 * P4.toNat + 2 ^ 320 * P5.toNat)) → (v30.toNat ≤ 2) → wp is Q ⟨l25, v24, v30, v27, v13, v8, 0xffffffffffffffc8, r8, l1, v18, v23, v28, v29, r14, r15, c30, o30, [t1, t0, z, P5, P4, P3, P2, P1, P0, N, s0, s1, s2, s3, s4, s5], m⟩) :
    wp (Asm.multiply_mont0 ++ is) Q ⟨rax, rbx, rcx, rdx, rsi, rdi, 0xffffffffffffffc8, r8, r9, r10, r11, r12, r13, r14, r15, cf, of, [t1, t0, z, P5, P4, P3, P2, P1, P0, N, s0, s1, s2, s3, s4, s5], m⟩ := by
  simp only [Asm.multiply_mont0, List.cons_append, List.nil_append]
  refine wp_mov rfl ?_
  dsimp only [Cpu.set, Cpu.get]
  refine wp_mul (stkRead_frame [t1, t0, z] P5 P4 P3 P2 P1 P0 N s0 s1 s2 s3 s4 s5).1 (fun l1 u1 c1 o1 h1 => ?_)
  dsimp only [Cpu.set, Cpu.get] at h1 ⊢
  have b1 := mul_hi h1 (u64_lt _) (u64_lt _)
  refine wp_mov rfl ?_
  dsimp only [Cpu.set, Cpu.get]
  refine wp_mov rfl ?_
  dsimp only [Cpu.set, Cpu.get]
  refine wp_mov (stkRead_frame [t1, t0, z] P5 P4 P3 P2 P1 P0 N s0 s1 s2 s3 s4 s5).2.1 ?_
  dsimp only [Cpu.set, Cpu.get]
  refine wp_mul rfl (fun l2 u2 c2 o2 h2 => ?_)
  dsimp only [Cpu.set, Cpu.get] at h2 ⊢
  have b2 := mul_hi h2 (u64_lt _) (u64_lt _)
  refine wp_add rfl (fun v3 c3 o3 h3 => ?_)
  dsimp only [Cpu.set, Cpu.get] at h3 ⊢
  have y3 := mont_low h1 h2 h3 (u64_lt _) hN
  rw [y3, Nat.zero_add] at h3
  refine wp_adc rfl (fun v4 c4 o4 h4 => ?_)
  dsimp only [Cpu.set, Cpu.get] at h4 ⊢
  obtain ⟨b4, z4⟩ := adc_small h4 (le_of_eq UInt64.toNat_zero) b2 (Bool.toNat_le _) (by norm_num)
  rw [z4, Nat.mul_zero, Nat.add_zero] at h4
  simp only [UInt64.toNat_zero, add_zero, zero_add] at h4
  refine wp_mov (stkRead_frame [t1, t0, z] P5 P4 P3 P2 P1 P0 N s0 s1 s2 s3 s4 s5).2.2.1 ?_
  dsimp only [Cpu.set, Cpu.get]
  refine wp_mul rfl (fun l5 u5 c5 o5 h5 => ?_)
  dsimp only [Cpu.set, Cpu.get] at h5 ⊢
  have b5 := mul_hi h5 (u64_lt _) (u64_lt _)
  refine wp_add rfl (fun v6 c6 o6 h6 => ?_)
  dsimp only [Cpu.set, Cpu.get] at h6 ⊢
  refine wp_adc rfl (fun v7 c7 o7 h7 => ?_)
  dsimp only [Cpu.set, Cpu.get] at h7 ⊢
  obtain ⟨b7, z7⟩ := adc_small h7 b5 (le_of_eq UInt64.toNat_zero) (Bool.toNat_le _) (by norm_num)
  rw [z7, Nat.mul_zero, Nat.add_zero] at h7
  simp only [UInt64.toNat_zero, add_zero, zero_add] at h7
  refine wp_add rfl (fun v8 c8 o8 h8 => ?_)
  dsimp only [Cpu.set, Cpu.get] at h8 ⊢
  refine wp_mov rfl ?_
  dsimp only [Cpu.set, Cpu.get]
  refine wp_adc rfl (fun v9 c9 o9 h9 => ?_)
  dsimp only [Cpu.set, Cpu.get] at h9 ⊢
  simp only [UInt64.toNat_zero, add_zero, zero_add] at h9
  have z9 := mac_top h5 h6 h7 h8 h9 (u64_lt _) (u64_lt _) (u64_lt _) (u64_lt _)
  rw [z9, Nat.mul_zero, Nat.add_zero] at h9
  refine wp_mov (stkRead_frame [t1, t0, z] P5 P4 P3 P2 P1 P0 N s0 s1 s2 s3 s4 s5).2.2.2.1 ?_
  dsimp only [Cpu.set, Cpu.get]
  refine wp_mul rfl (fun l10 u10 c10 o10 h10 => ?_)
  dsimp only [Cpu.set, Cpu.get] at h10 ⊢
  have b10 := mul_hi h10 (u64_lt _) (u64_lt _)
  refine wp_add rfl (fun v11 c11 o11 h11 => ?_)
  dsimp only [Cpu.set, Cpu.get] at h11 ⊢
  refine wp_adc rfl (fun v12 c12 o12 h12 => ?_)
  dsimp only [Cpu.set, Cpu.get] at h12 ⊢
  obtain ⟨b12, z12⟩ := adc_small h12 b10 (le_of_eq UInt64.toNat_zero) (Bool.toNat_le _) (by norm_num)
  rw [z12, Nat.mul_zero, Nat.add_zero] at h12
  simp only [UInt64.toNat_zero, add_zero, zero_add] at h12
  refine wp_add rfl (fun v13 c13 o13 h13 => ?_)
  dsimp only [Cpu.set, Cpu.get] at h13 ⊢
  refine wp_mov rfl ?_
  dsimp only [Cpu.set, Cpu.get]
  refine wp_adc rfl (fun v14 c14 o14 h14 => ?_)
  dsimp only [Cpu.set, Cpu.get] at h14 ⊢
  simp only [UInt64.toNat_zero, add_zero, zero_add] at h14
  have z14 := mac_top h10 h11 h12 h13 h14 (u64_lt _) (u64_lt _) (u64_lt _) (u64_lt _)
  rw [z14, Nat.mul_zero, Nat.add_zero] at h14
  refine wp_mov (stkRead_frame [t1, t0, z] P5 P4 P3 P2 P1 P0 N s0 s1 s2 s3 s4 s5).2.2.2.2.1 ?_
  dsimp only [Cpu.set, Cpu.get]
  refine wp_mul rfl (fun l15 u15 c15 o15 h15 => ?_)
  dsimp only [Cpu.set, Cpu.get] at h15 ⊢
  have b15 := mul_hi h15 (u64_lt _) (u64_lt _)
  refine wp_add rfl (fun v16 c16 o16 h16 => ?_)
  dsimp only [Cpu.set, Cpu.get] at h16 ⊢
  refine wp_adc rfl (fun v17 c17 o17 h17 => ?_)
  dsimp only [Cpu.set, Cpu.get] at h17 ⊢
  obtain ⟨b17, z17⟩ := adc_small h17 b15 (le_of_eq UInt64.toNat_zero) (Bool.toNat_le _) (by norm_num)
  rw [z17, Nat.mul_zero, Nat.add_zero] at h17
  simp only [UInt64.toNat_zero, add_zero, zero_add] at h17
  refine wp_add rfl (fun v18 c18 o18 h18 => ?_)
  dsimp only [Cpu.set, Cpu.get] at h18 ⊢
  refine wp_mov rfl ?_
  dsimp only [Cpu.set, Cpu.get]
  refine wp_adc rfl (fun v19 c19 o19 h19 => ?_)
  dsimp only [Cpu.set, Cpu.get] at h19 ⊢
  simp only [UInt64.toNat_zero, add_zero, zero_add] at h19
  have z19 := mac_top h15 h16 h17 h18 h19 (u64_lt _) (u64_lt _) (u64_lt _) (u64_lt _)
  rw [z19, Nat.mul_zero, Nat.add_zero] at h19
  refine wp_mov (stkRead_frame [t1, t0, z] P5 P4 P3 P2 P1 P0 N s0 s1 s2 s3 s4 s5).2.2.2.2.2.1 ?_
  dsimp only [Cpu.set, Cpu.get]
  refine wp_mul rfl (fun l20 u20 c20 o20 h20 => ?_)
  dsimp only [Cpu.set, Cpu.get] at h20 ⊢
  have b20 := mul_hi h20 (u64_lt _) (u64_lt _)
  refine wp_add rfl (fun v21 c21 o21 h21 => ?_)
  dsimp only [Cpu.set, Cpu.get] at h21 ⊢
  refine wp_adc rfl (fun v22 c22 o22 h22 => ?_)
  dsimp only [Cpu.set, Cpu.get] at h22 ⊢
  obtain ⟨b22, z22⟩ := adc_small h22 b20 (le_of_eq UInt64.toNat_zero) (Bool.toNat_le _) (by norm_num)
  rw [z22, Nat.mul_zero, Nat.add_zero] at h22
  simp only [UInt64.toNat_zero, add_zero, zero_add] at h22
  refine wp_add rfl (fun v23 c23 o23 h23 => ?_)
  dsimp only [Cpu.set, Cpu.get] at h23 ⊢
  refine wp_mov rfl ?_
  dsimp only [Cpu.set, Cpu.get]
  refine wp_adc rfl (fun v24 c24 o24 h24 => ?_)
  dsimp only [Cpu.set, Cpu.get] at h24 ⊢
  simp only [UInt64.toNat_zero, add_zero, zero_add] at h24
  have z24 := mac_top h20 h21 h22 h23 h24 (u64_lt _) (u64_lt _) (u64_lt _) (u64_lt _)
  rw [z24, Nat.mul_zero, Nat.add_zero] at h24
  refine wp_mov (stkRead_frame [t1, t0, z] P5 P4 P3 P2 P1 P0 N s0 s1 s2 s3 s4 s5).2.2.2.2.2.2 ?_
  dsimp only [Cpu.set, Cpu.get]
  refine wp_mul rfl (fun l25 u25 c25 o25 h25 => ?_)
  dsimp only [Cpu.set, Cpu.get] at h25 ⊢
  rw [Nat.mul_comm P5.toNat] at h25
  have b25 := mul_hi61 h25 (u64_lt _) hP5
  refine wp_add rfl (fun v26 c26 o26 h26 => ?_)
  dsimp only [Cpu.set, Cpu.get] at h26 ⊢
  refine wp_adc rfl (fun v27 c27 o27 h27 => ?_)
  dsimp only [Cpu.set, Cpu.get] at h27 ⊢
  obtain ⟨b27, z27⟩ := adc_small h27 b25 (le_of_eq UInt64.toNat_zero) (Bool.toNat_le _) (by norm_num)
  rw [z27, Nat.mul_zero, Nat.add_zero] at h27
  simp only [UInt64.toNat_zero, add_zero, zero_add] at h27
  refine wp_add rfl (fun v28 c28 o28 h28 => ?_)
  dsimp only [Cpu.set, Cpu.get] at h28 ⊢
  refine wp_adc rfl (fun v29 c29 o29 h29 => ?_)
  dsimp only [Cpu.set, Cpu.get] at h29 ⊢
  refine wp_adc rfl (fun v30 c30 o30 h30 => ?_)
  dsimp only [Cpu.set, Cpu.get] at h30 ⊢
  obtain ⟨b30, z30⟩ := adc_small h30 (le_of_eq y3) (le_of_eq UInt64.toNat_zero) (Bool.toNat_le _) (by norm_num)
  rw [z30, Nat.mul_zero, Nat.add_zero] at h30
  simp only [UInt64.toNat_zero, add_zero, zero_add] at h30
  simp only [y3, zero_add, add_zero] at h30
  have key : 2 ^ 64 * v8.toNat + 2 ^ 128 * v13.toNat + 2 ^ 192 * v18.toNat + 2 ^ 256 * v23.toNat + 2 ^ 320 * v28.toNat + 2 ^ 384 * v29.toNat + 2 ^ 448 * v30.toNat = rcx.toNat + 2 ^ 64 * rdi.toNat + 2 ^ 128 * rsi.toNat + 2 ^ 192 * r10.toNat + 2 ^ 256 * r11.toNat + 2 ^ 320 * r12.toNat + 2 ^ 384 * r13.toNat + l1.toNat * (P0.toNat + 2 ^ 64 * P1.toNat + 2 ^ 128 * P2.toNat + 2 ^ 192 * P3.toNat + 2 ^ 256 * P4.toNat + 2 ^ 320 * P5.toNat) := by
    linear_combination 2 ^ 448 * h30 + 2 ^ 384 * h29 + 2 ^ 320 * h28 + 2 ^ 384 * h27 + 2 ^ 320 * h26 + 2 ^ 320 * h25 + 2 ^ 320 * h24 + 2 ^ 256 * h23 + 2 ^ 320 * h22 + 2 ^ 256 * h21 + 2 ^ 256 * h20 + 2 ^ 256 * h19 + 2 ^ 192 * h18 + 2 ^ 256 * h17 + 2 ^ 192 * h16 + 2 ^ 192 * h15 + 2 ^ 192 * h14 + 2 ^ 128 * h13 + 2 ^ 192 * h12 + 2 ^ 128 * h11 + 2 ^ 128 * h10 + 2 ^ 128 * h9 + 2 ^ 64 * h8 + 2 ^ 128 * h7 + 2 ^ 64 * h6 + 2 ^ 64 * h5 + 2 ^ 64 * h4 + h3 + h2
  have keyb : v30.toNat ≤ 2 := by have := b30; omega
  exact H l1 v8 v13 v18 v23 v24 l25 v27 v28 v29 v30 c30 o30 key keyb

theorem multiply_mont1_wp {is : List Instr} {Q : Cpu → Prop}
    {rax rbx rcx rdx rsi rdi r8 r9 r10 r11 r12 r13 r14 r15 t1 t0 z P5 P4 P3 P2 P1 P0 N s0 s1 s2 s3 s4 s5 : UInt64} {cf of : Bool} {m : UInt64 → UInt64}
    (hN : (N.toNat * P0.toNat + 1) % 2 ^ 64 = 0)
    (hP5 : P5.toNat ≤ 2 ^ 61)
    (hcy : rcx.toNat ≤ 2)
    (H : ∀ (l1 : UInt64) (v3 : UInt64) (v8 : UInt64) (v13 : UInt64) (v18 : UInt64) (v23 : UInt64) (v24 : UInt64) (l25 : UInt64) (u25 : UInt64) (v28 : UInt64) (v29 : UInt64) (v30 : UInt64) (c30 : Bool) (o30 : Bool), (2 ^ 64 * v8.toNat + 2 ^ 128 * v13.toNat + 2 ^ 192 * v18.toNat + 2 ^ 256 * v23.toNat + 2 ^ 320 * v28.toNat + 2 ^ 384 * v29.toNat + 2 ^ 448 * v30.toNat = rdi.toNat + 2 ^ 64 * rsi.toNat + 2 ^ 128 * r10.toNat + 2 ^ 192 * r11.toNat + 2 ^ 256 * r12.toNat + 2 ^ 320 * r13.toNat + 2 ^ 384 * r14.toNat + 2 ^ 384 * rcx.toNat + l1.toNat * (P0.toNat + 2 ^ 64 * P1.toNat + 2 ^ 128 * P2.toNat + 2 ^ 192 * P3.toNat + 2 ^ 256 * P4.toNat + 2 ^ 320 * P5.toNat)) → (v30.toNat ≤ 2) → wp is Q ⟨l25, v24, v30, u25, v8, v3, 0xffffffffffffffc8, r8, l1, v13, v18, v23, v28, v29, r15, c30, o30, [t1, t0, z, P5, P4, P3, P2, P1, P0, N, s0, s1, s2, s3, s4, s5], m⟩) :
    wp (Asm.multiply_mont1 ++ is) Q ⟨rax, rbx, rcx, rdx, rsi, rdi, 0xffffffffffffffc8, r8, r9, r10, r11, r12, r13, r14, r15, cf, of, [t1, t0, z, P5, P4, P3, P2, P1, P0, N, s0, s1, s2, s3, s4, s5], m⟩ := by
  simp only [Asm.multiply_mont1, List.cons_append, List.nil_append]
  refine wp_mov rfl ?_
  dsimp only [Cpu.set, Cpu.get]
  refine wp_mul (stkRead_frame [t1, t0, z] P5 P4 P3 P2 P1 P0 N s0 s1 s2 s3 s4 s5).1 (fun l1 u1 c1 o1 h1 => ?_)
  dsimp only [Cpu.set, Cpu.get] at h1 ⊢
  have b1 := mul_hi h1 (u64_lt _) (u64_lt _)
  refine wp_mov rfl ?_
  dsimp only [Cpu.set, Cpu.get]
  refine wp_mov rfl ?_
  dsimp only [Cpu.set, Cpu.get]
  refine wp_mov (stkRead_frame [t1, t0, z] P5 P4 P3 P2 P1 P0 N s0 s1 s2 s3 s4 s5).2.1 ?_
  dsimp only [Cpu.set, Cpu.get]
  refine wp_mul rfl (fun l2 u2 c2 o2 h2 => ?_)
  dsimp only [Cpu.set, Cpu.get] at h2 ⊢
  have b2 := mul_hi h2 (u64_lt _) (u64_lt _)
  refine wp_add rfl (fun v3 c3 o3 h3 => ?_)
  dsimp only [Cpu.set, Cpu.get] at h3 ⊢
  have y3 := mont_low h1 h2 h3 (u64_lt _) hN
  rw [y3, Nat.zero_add] at h3
  refine wp_adc rfl (fun v4 c4 o4 h4 => ?_)
  dsimp only [Cpu.set, Cpu.get] at h4 ⊢
  obtain ⟨b4, z4⟩ := adc_small h4 (le_of_eq UInt64.toNat_zero) b2 (Bool.toNat_le _) (by norm_num)
  rw [z4, Nat.mul_zero, Nat.add_zero] at h4
  simp only [UInt64.toNat_zero, add_zero, zero_add] at h4
  refine wp_mov (stkRead_frame [t1, t0, z] P5 P4 P3 P2 P1 P0 N s0 s1 s2 s3 s4 s5).2.2.1 ?_
  dsimp only [Cpu.set, Cpu.get]
  refine wp_mul rfl (fun l5 u5 c5 o5 h5 => ?_)
  dsimp only [Cpu.set, Cpu.get] at h5 ⊢
  have b5 := mul_hi h5 (u64_lt _) (u64_lt _)
  refine wp_add rfl (fun v6 c6 o6 h6 => ?_)
  dsimp only [Cpu.set, Cpu.get] at h6 ⊢
  refine wp_adc rfl (fun v7 c7 o7 h7 => ?_)
  dsimp only [Cpu.set, Cpu.get] at h7 ⊢
  obtain ⟨b7, z7⟩ := adc_small h7 b5 (le_of_eq UInt64.toNat_zero) (Bool.toNat_le _) (by norm_num)
  rw [z7, Nat.mul_zero, Nat.add_zero] at h7
  simp only [UInt64.toNat_zero, add_zero, zero_add] at h7
  refine wp_add rfl (fun v8 c8 o8 h8 => ?_)
  dsimp only [Cpu.set, Cpu.get] at h8 ⊢
  refine wp_mov rfl ?_
  dsimp only [Cpu.set, Cpu.get]
  refine wp_adc rfl (fun v9 c9 o9 h9 => ?_)
  dsimp only [Cpu.set, Cpu.get] at h9 ⊢
  simp only [UInt64.toNat_zero, add_zero, zero_add] at h9
  have z9 := mac_top h5 h6 h7 h8 h9 (u64_lt _) (u64_lt _) (u64_lt _) (u64_lt _)
  rw [z9, Nat.mul_zero, Nat.add_zero] at h9
  refine wp_mov (stkRead_frame [t1, t0, z] P5 P4 P3 P2 P1 P0 N s0 s1 s2 s3 s4 s5).2.2.2.1 ?_
  dsimp only [Cpu.set, Cpu.get]
  refine wp_mul rfl (fun l10 u10 c10 o10 h10 => ?_)
  dsimp only [Cpu.set, Cpu.get] at h10 ⊢
  have b10 := mul_hi h10 (u64_lt _) (u64_lt _)
  refine wp_add rfl (fun v11 c11 o11 h11 => ?_)
  dsimp only [Cpu.set, Cpu.get] at h11 ⊢
  refine wp_adc rfl (fun v12 c12 o12 h12 => ?_)
  dsimp only [Cpu.set, Cpu.get] at h12 ⊢
  obtain ⟨b12, z12⟩ := adc_small h12 b10 (le_of_eq UInt64.toNat_zero) (Bool.toNat_le _) (by norm_num)
  rw [z12, Nat.mul_zero, Nat.add_zero] at h12
  simp only [UInt64.toNat_zero, add_zero, zero_add] at h12
  refine wp_add rfl (fun v13 c13 o13 h13 => ?_)
  dsimp only [Cpu.set, Cpu.get] at h13 ⊢
  refine wp_mov rfl ?_
  dsimp only [Cpu.set, Cpu.get]
  refine wp_adc rfl (fun v14 c14 o14 h14 => ?_)
  dsimp only [Cpu.set, Cpu.get] at h14 ⊢
  simp only [UInt64.toNat_zero, add_zero, zero_add] at h14
  have z14 := mac_top h10 h11 h12 h13 h14 (u64_lt _) (u64_lt _) (u64_lt _) (u64_lt _)
  rw [z14, Nat.mul_zero, Nat.add_zero] at h14
  refine wp_mov (stkRead_frame [t1, t0, z] P5 P4 P3 P2 P1 P0 N s0 s1 s2 s3 s4 s5).2.2.2.2.1 ?_
  dsimp only [Cpu.set, Cpu.get]
  refine wp_mul rfl (fun l15 u15 c15 o15 h15 => ?_)
  dsimp only [Cpu.set, Cpu.get] at h15 ⊢
  have b15 := mul_hi h15 (u64_lt _) (u64_lt _)
  refine wp_add rfl (fun v16 c16 o16 h16 => ?_)
  dsimp only [Cpu.set, Cpu.get] at h16 ⊢
  refine wp_adc rfl (fun v17 c17 o17 h17 => ?_)
  dsimp only [Cpu.set, Cpu.get] at h17 ⊢
  obtain ⟨b17, z17⟩ := adc_small h17 b15 (le_of_eq UInt64.toNat_zero) (Bool.toNat_le _) (by norm_num)
  rw [z17, Nat.mul_zero, Nat.add_zero] at h17
  simp only [UInt64.toNat_zero, add_zero, zero_add] at h17
  refine wp_add rfl (fun v18 c18 o18 h18 => ?_)
  dsimp only [Cpu.set, Cpu.get] at h18 ⊢
  refine wp_mov rfl ?_
  dsimp only [Cpu.set, Cpu.get]
  refine wp_adc rfl (fun v19 c19 o19 h19 => ?_)
  dsimp only [Cpu.set, Cpu.get] at h19 ⊢
  simp only [UInt64.toNat_zero, add_zero, zero_add] at h19
  have z19 := mac_top h15 h16 h17 h18 h19 (u64_lt _) (u64_lt _) (u64_lt _) (u64_lt _)
  rw [z19, Nat.mul_zero, Nat.add_zero] at h19
  refine wp_mov (stkRead_frame [t1, t0, z] P5 P4 P3 P2 P1 P0 N s0 s1 s2 s3 s4 s5).2.2.2.2.2.1 ?_
  dsimp only [Cpu.set, Cpu.get]
  refine wp_mul rfl (fun l20 u20 c20 o20 h20 => ?_)
  dsimp only [Cpu.set, Cpu.get] at h20 ⊢
  have b20 := mul_hi h20 (u64_lt _) (u64_lt _)
  refine wp_add rfl (fun v21 c21 o21 h21 => ?_)
  dsimp only [Cpu.set, Cpu.get] at h21 ⊢
  refine wp_adc rfl (fun v22 c22 o22 h22 => ?_)
  dsimp only [Cpu.set, Cpu.get] at h22 ⊢
  obtain ⟨b22, z22⟩ := adc_small h22 b20 (le_of_eq UInt64.toNat_zero) (Bool.toNat_le _) (by norm_num)
  rw [z22, Nat.mul_zero, Nat.add_zero] at h22
  simp only [UInt64.toNat_zero, add_zero, zero_add] at h22
  refine wp_add rfl (fun v23 c23 o23 h23 => ?_)
  dsimp only [Cpu.set, Cpu.get] at h23 ⊢
  refine wp_mov rfl ?_
  dsimp only [Cpu.set, Cpu.get]
  refine wp_adc rfl (fun v24 c24 o24 h24 => ?_)
  dsimp only [Cpu.set, Cpu.get] at h24 ⊢
  simp only [UInt64.toNat_zero, add_zero, zero_add] at h24
  have z24 := mac_top h20 h21 h22 h23 h24 (u64_lt _) (u64_lt _) (u64_lt _) (u64_lt _)
  rw [z24, Nat.mul_zero, Nat.add_zero] at h24
  refine wp_mov (stkRead_frame [t1, t0, z] P5 P4 P3 P2 P1 P0 N s0 s1 s2 s3 s4 s5).2.2.2.2.2.2 ?_
  dsimp only [Cpu.set, Cpu.get]
  refine wp_mul rfl (fun l25 u25 c25 o25 h25 => ?_)
  dsimp only [Cpu.set, Cpu.get] at h25 ⊢
  rw [Nat.mul_comm P5.toNat] at h25
  have b25 := mul_hi61 h25 (u64_lt _) hP5
  refine wp_add rfl (fun v26 c26 o26 h26 => ?_)
  dsimp only [Cpu.set, Cpu.get] at h26 ⊢
  refine wp_adc rfl (fun v27 c27 o27 h27 => ?_)
  dsimp only [Cpu.set, Cpu.get] at h27 ⊢
  obtain ⟨b27, z27⟩ := adc_small h27 hcy b25 (Bool.toNat_le _) (by norm_num)
  rw [z27, Nat.mul_zero, Nat.add_zero] at h27
  refine wp_add rfl (fun v28 c28 o28 h28 => ?_)
  dsimp only [Cpu.set, Cpu.get] at h28 ⊢
  refine wp_adc rfl (fun v29 c29 o29 h29 => ?_)
  dsimp only [Cpu.set, Cpu.get] at h29 ⊢
  refine wp_mov rfl ?_
  dsimp only [Cpu.set, Cpu.get]
  refine wp_adc rfl (fun v30 c30 o30 h30 => ?_)
  dsimp only [Cpu.set, Cpu.get] at h30 ⊢
  obtain ⟨b30, z30⟩ := adc_small h30 (le_of_eq UInt64.toNat_zero) (le_of_eq UInt64.toNat_zero) (Bool.toNat_le _) (by norm_num)
  rw [z30, Nat.mul_zero, Nat.add_zero] at h30
  simp only [UInt64.toNat_zero, add_zero, zero_add] at h30
  have key : 2 ^ 64 * v8.toNat + 2 ^ 128 * v13.toNat + 2 ^ 192 * v18.toNat + 2 ^ 256 * v23.toNat + 2 ^ 320 * v28.toNat + 2 ^ 384 * v29.toNat + 2 ^ 448 * v30.toNat = rdi.toNat + 2 ^ 64 * rsi.toNat + 2 ^ 128 * r10.toNat + 2 ^ 192 * r11.toNat + 2 ^ 256 * r12.toNat + 2 ^ 320 * r13.toNat + 2 ^ 384 * r14.toNat + 2 ^ 384 * rcx.toNat + l1.toNat * (P0.toNat + 2 ^ 64 * P1.toNat + 2 ^ 128 * P2.toNat + 2 ^ 192 * P3.toNat + 2 ^ 256 * P4.toNat + 2 ^ 320 * P5.toNat) := by
    linear_combination 2 ^ 448 * h30 + 2 ^ 384 * h29 + 2 ^ 320 * h28 + 2 ^ 384 * h27 + 2 ^ 320 * h26 + 2 ^ 320 * h25 + 2 ^ 320 * h24 + 2 ^ 256 * h23 + 2 ^ 320 * h22 + 2 ^ 256 * h21 + 2 ^ 256 * h20 + 2 ^ 256 * h19 + 2 ^ 192 * h18 + 2 ^ 256 * h17 + 2 ^ 192 * h16 + 2 ^ 192 * h15 + 2 ^ 192 * h14 + 2 ^ 128 * h13 + 2 ^ 192 * h12 + 2 ^ 128 * h11 + 2 ^ 128 * h10 + 2 ^ 128 * h9 + 2 ^ 64 * h8 + 2 ^ 128 * h7 + 2 ^ 64 * h6 + 2 ^ 64 * h5 + 2 ^ 64 * h4 + h3 + h2
  have keyb : v30.toNat ≤ 2 := by have := b30; omega
  exact H l1 v3 v8 v13 v18 v23 v24 l25 u25 v28 v29 v30 c30 o30 key keyb

theorem multiply_mont2_wp {is : List Instr} {Q : Cpu → Prop}
    {rax rbx rcx rdx rsi rdi r8 r9 r10 r11 r12 r13 r14 r15 t1 t0 z P5 P4 P3 P2 P1 P0 N s0 s1 s2 s3 s4 s5 : UInt64} {cf of : Bool} {m : UInt64 → UInt64}
    (hN : (N.toNat * P0.toNat + 1) % 2 ^ 64 = 0)
    (hP5 : P5.toNat ≤ 2 ^ 61)
    (hcy : rcx.toNat ≤ 2)
    (H : ∀ (l1 : UInt64) (v3 : UInt64) (v8 : UInt64) (v13 : UInt64) (v18 : UInt64) (v23 : UInt64) (v24 : UInt64) (l25 : UInt64) (u25 : UInt64) (v28 : UInt64) (v29 : UInt64) (v30 : UInt64) (c30 : Bool) (o30 : Bool), (2 ^ 64 * v8.toNat + 2 ^ 128 * v13.toNat + 2 ^ 192 * v18.toNat + 2 ^ 256 * v23.toNat + 2 ^ 320 * v28.toNat + 2 ^ 384 * v29.toNat + 2 ^ 448 * v30.toNat = rsi.toNat + 2 ^ 64 * r10.toNat + 2 ^ 128 * r11.toNat + 2 ^ 192 * r12.toNat + 2 ^ 256 * r13.toNat + 2 ^ 320 * r14.toNat + 2 ^ 384 * r15.toNat + 2 ^ 384 * rcx.toNat + l1.toNat * (P0.toNat + 2 ^ 64 * P1.toNat + 2 ^ 128 * P2.toNat + 2 ^ 192 * P3.toNat + 2 ^ 256 * P4.toNat + 2 ^ 320 * P5.toNat)) → (v30.toNat ≤ 2) → wp is Q ⟨l25, v24, v30, u25, v3, rdi, 0xffffffffffffffc8, r8, l1, v8, v13, v18, v23, v28, v29, c30, o30, [t1, t0, z, P5, P4, P3, P2, P1, P0, N, s0, s1, s2, s3, s4, s5], m⟩) :
    wp (Asm.multiply_mont2 ++ is) Q ⟨rax, rbx, rcx, rdx, rsi, rdi, 0xffffffffffffffc8, r8, r9, r10, r11, r12, r13, r14, r15, cf, of, [t1, t0, z, P5, P4, P3, P2, P1, P0, N, s0, s1, s2, s3, s4, s5], m⟩ := by
  simp only [Asm.multiply_mont2, List.cons_append, List.nil_append]
  refine wp_mov rfl ?_
  dsimp only [Cpu.set, Cpu.get]
  refine wp_mul (stkRead_frame [t1, t0, z] P5 P4 P3 P2 P1 P0 N s0 s1 s2 s3 s4 s5).1 (fun l1 u1 c1 o1 h1 => ?_)
  dsimp only [Cpu.set, Cpu.get] at h1 ⊢
  have b1 := mul_hi h1 (u64_lt _) (u64_lt _)
  refine wp_mov rfl ?_
  dsimp only [Cpu.set, Cpu.get]
  refine wp_mov rfl ?_
  dsimp only [Cpu.set, Cpu.get]
  refine wp_mov (stkRead_frame [t1, t0, z] P5 P4 P3 P2 P1 P0 N s0 s1 s2 s3 s4 s5).2.1 ?_
  dsimp only [Cpu.set, Cpu.get]
  refine wp_mul rfl (fun l2 u2 c2 o2 h2 => ?_)
  dsimp only [Cpu.set, Cpu.get] at h2 ⊢
  have b2 := mul_hi h2 (u64_lt _) (u64_lt _)
  refine wp_add rfl (fun v3 c3 o3 h3 => ?_)
  dsimp only [Cpu.set, Cpu.get] at h3 ⊢
  have y3 := mont_low h1 h2 h3 (u64_lt _) hN
  rw [y3, Nat.zero_add] at h3
  refine wp_adc rfl (fun v4 c4 o4 h4 => ?_)
  dsimp only [Cpu.set, Cpu.get] at h4 ⊢
  obtain ⟨b4, z4⟩ := adc_small h4 (le_of_eq UInt64.toNat_zero) b2 (Bool.toNat_le _) (by norm_num)
  rw [z4, Nat.mul_zero, Nat.add_zero] at h4
  simp only [UInt64.toNat_zero, add_zero, zero_add] at h4
  refine wp_mov (stkRead_frame [t1, t0, z] P5 P4 P3 P2 P1 P0 N s0 s1 s2 s3 s4 s5).2.2.1 ?_
  dsimp only [Cpu.set, Cpu.get]
  refine wp_mul rfl (fun l5 u5 c5 o5 h5 => ?_)
  dsimp only [Cpu.set, Cpu.get] at h5 ⊢
  have b5 := mul_hi h5 (u64_lt _) (u64_lt _)
  refine wp_add rfl (fun v6 c6 o6 h6 => ?_)
  dsimp only [Cpu.set, Cpu.get] at h6 ⊢
  refine wp_adc rfl (fun v7 c7 o7 h7 => ?_)
  dsimp only [Cpu.set, Cpu.get] at h7 ⊢
  obtain ⟨b7, z7⟩ := adc_small h7 b5 (le_of_eq UInt64.toNat_zero) (Bool.toNat_le _) (by norm_num)
  rw [z7, Nat.mul_zero, Nat.add_zero] at h7
  simp only [UInt64.toNat_zero, add_zero, zero_add] at h7
  refine wp_add rfl (fun v8 c8 o8 h8 => ?_)
  dsimp only [Cpu.set, Cpu.get] at h8 ⊢
  refine wp_mov rfl ?_
  dsimp only [Cpu.set, Cpu.get]
  refine wp_adc rfl (fun v9 c9 o9 h9 => ?_)
  dsimp only [Cpu.set, Cpu.get] at h9 ⊢
  simp only [UInt64.toNat_zero, add_zero, zero_add] at h9
  have z9 := mac_top h5 h6 h7 h8 h9 (u64_lt _) (u64_lt _) (u64_lt _) (u64_lt _)
  rw [z9, Nat.mul_zero, Nat.add_zero] at h9
  refine wp_mov (stkRead_frame [t1, t0, z] P5 P4 P3 P2 P1 P0 N s0 s1 s2 s3 s4 s5).2.2.2.1 ?_
  dsimp only [Cpu.set, Cpu.get]
  refine wp_mul rfl (fun l10 u10 c10 o10 h10 => ?_)
  dsimp only [Cpu.set, Cpu.get] at h10 ⊢
  have b10 := mul_hi h10 (u64_lt _) (u64_lt _)
  refine wp_add rfl (fun v11 c11 o11 h11 => ?_)
  dsimp only [Cpu.set, Cpu.get] at h11 ⊢
  refine wp_adc rfl (fun v12 c12 o12 h12 => ?_)
  dsimp only [Cpu.set, Cpu.get] at h12 ⊢
  obtain ⟨b12, z12⟩ := adc_small h12 b10 (le_of_eq UInt64.toNat_zero) (Bool.toNat_le _) (by norm_num)
  rw [z12, Nat.mul_zero, Nat.add_zero] at h12
  simp only [UInt64.toNat_zero, add_zero, zero_add] at h12
  refine wp_add rfl (fun v13 c13 o13 h13 => ?_)
  dsimp only [Cpu.set, Cpu.get] at h13 ⊢
  refine wp_mov rfl ?_
  dsimp only [Cpu.set, Cpu.get]
  refine wp_adc rfl (fun v14 c14 o14 h14 => ?_)
  dsimp only [Cpu.set, Cpu.get] at h14 ⊢
  simp only [UInt64.toNat_zero, add_zero, zero_add] at h14
  have z14 := mac_top h10 h11 h12 h13 h14 (u64_lt _) (u64_lt _) (u64_lt _) (u64_lt _)
  rw [z14, Nat.mul_zero, Nat.add_zero] at h14
  refine wp_mov (stkRead_frame [t1, t0, z] P5 P4 P3 P2 P1 P0 N s0 s1 s2 s3 s4 s5).2.2.2.2.1 ?_
  dsimp only [Cpu.set, Cpu.get]
  refine wp_mul rfl (fun l15 u15 c15 o15 h15 => ?_)
  dsimp only [Cpu.set, Cpu.get] at h15 ⊢
  have b15 := mul_hi h15 (u64_lt _) (u64_lt _)
  refine wp_add rfl (fun v16 c16 o16 h16 => ?_)
  dsimp only [Cpu.set, Cpu.get] at h16 ⊢
  refine wp_adc rfl (fun v17 c17 o17 h17 => ?_)
  dsimp only [Cpu.set, Cpu.get] at h17 ⊢
  obtain ⟨b17, z17⟩ := adc_small h17 b15 (le_of_eq UInt64.toNat_zero) (Bool.toNat_le _) (by norm_num)
  rw [z17, Nat.mul_zero, Nat.add_zero] at h17
  simp only [UInt64.toNat_zero, add_zero, zero_add] at h17
  refine wp_add rfl (fun v18 c18 o18 h18 => ?_)
  dsimp only [Cpu.set, Cpu.get] at h18 ⊢
  refine wp_mov rfl ?_
  dsimp only [Cpu.set, Cpu.get]
  refine wp_adc rfl (fun v19 c19 o19 h19 => ?_)
  dsimp only [Cpu.set, Cpu.get] at h19 ⊢
  simp only [UInt64.toNat_zero, add_zero, zero_add] at h19
  have z19 := mac_top h15 h16 h17 h18 h19 (u64_lt _) (u64_lt _) (u64_lt _) (u64_lt _)
  rw [z19, Nat.mul_zero, Nat.add_zero] at h19
  refine wp_mov (stkRead_frame [t1, t0, z] P5 P4 P3 P2 P1 P0 N s0 s1 s2 s3 s4 s5).2.2.2.2.2.1 ?_
  dsimp only [Cpu.set, Cpu.get]
  refine wp_mul rfl (fun l20 u20 c20 o20 h20 => ?_)
  dsimp only [Cpu.set, Cpu.get] at h20 ⊢
  have b20 := mul_hi h20 (u64_lt _) (u64_lt _)
  refine wp_add rfl (fun v21 c21 o21 h21 => ?_)
  dsimp only [Cpu.set, Cpu.get] at h21 ⊢
  refine wp_adc rfl (fun v22 c22 o22 h22 => ?_)
  dsimp only [Cpu.set, Cpu.get] at h22 ⊢
  obtain ⟨b22, z22⟩ := adc_small h22 b20 (le_of_eq UInt64.toNat_zero) (Bool.toNat_le _) (by norm_num)
  rw [z22, Nat.mul_zero, Nat.add_zero] at h22
  simp only [UInt64.toNat_zero, add_zero, zero_add] at h22
  refine wp_add rfl (fun v23 c23 o23 h23 => ?_)
  dsimp only [Cpu.set, Cpu.get] at h23 ⊢
  refine wp_mov rfl ?_
  dsimp only [Cpu.set, Cpu.get]
  refine wp_adc rfl (fun v24 c24 o24 h24 => ?_)
  dsimp only [Cpu.set, Cpu.get] at h24 ⊢
  simp only [UInt64.toNat_zero, add_zero, zero_add] at h24
  have z24 := mac_top h20 h21 h22 h23 h24 (u64_lt _) (u64_lt _) (u64_lt _) (u64_lt _)
  rw [z24, Nat.mul_zero, Nat.add_zero] at h24
  refine wp_mov (stkRead_frame [t1, t0, z] P5 P4 P3 P2 P1 P0 N s0 s1 s2 s3 s4 s5).2.2.2.2.2.2 ?_
  dsimp only [Cpu.set, Cpu.get]
  refine wp_mul rfl (fun l25 u25 c25 o25 h25 => ?_)
  dsimp only [Cpu.set, Cpu.get] at h25 ⊢
  rw [Nat.mul_comm P5.toNat] at h25
  have b25 := mul_hi61 h25 (u64_lt _) hP5
  refine wp_add rfl (fun v26 c26 o26 h26 => ?_)
  dsimp only [Cpu.set, Cpu.get] at h26 ⊢
  refine wp_adc rfl (fun v27 c27 o27 h27 => ?_)
  dsimp only [Cpu.set, Cpu.get] at h27 ⊢
  obtain ⟨b27, z27⟩ := adc_small h27 hcy b25 (Bool.toNat_le _) (by norm_num)
  rw [z27, Nat.mul_zero, Nat.add_zero] at h27
  refine wp_add rfl (fun v28 c28 o28 h28 => ?_)
  dsimp only [Cpu.set, Cpu.get] at h28 ⊢
  refine wp_adc rfl (fun v29 c29 o29 h29 => ?_)
  dsimp only [Cpu.set, Cpu.get] at h29 ⊢
  refine wp_mov rfl ?_
  dsimp only [Cpu.set, Cpu.get]
  refine wp_adc rfl (fun v30 c30 o30 h30 => ?_)
  dsimp only [Cpu.set, Cpu.get] at h30 ⊢
  obtain ⟨b30, z30⟩ := adc_small h30 (le_of_eq UInt64.toNat_zero) (le_of_eq UInt64.toNat_zero) (Bool.toNat_le _) (by norm_num)
  rw [z30, Nat.mul_zero, Nat.add_zero] at h30
  simp only [UInt64.toNat_zero, add_zero, zero_add] at h30
  have key : 2 ^ 64 * v8.toNat + 2 ^ 128 * v13.toNat + 2 ^ 192 * v18.toNat + 2 ^ 256 * v23.toNat + 2 ^ 320 * v28.toNat + 2 ^ 384 * v29.toNat + 2 ^ 448 * v30.toNat = rsi.toNat + 2 ^ 64 * r10.toNat + 2 ^ 128 * r11.toNat + 2 ^ 192 * r12.toNat + 2 ^ 256 * r13.toNat + 2 ^ 320 * r14.toNat + 2 ^ 384 * r15.toNat + 2 ^ 384 * rcx.toNat + l1.toNat * (P0.toNat + 2 ^ 64 * P1.toNat + 2 ^ 128 * P2.toNat + 2 ^ 192 * P3.toNat + 2 ^ 256 * P4.toNat + 2 ^ 320 * P5.toNat) := by
    linear_combination 2 ^ 448 * h30 + 2 ^ 384 * h29 + 2 ^ 320 * h28 + 2 ^ 384 * h27 + 2 ^ 320 * h26 + 2 ^ 320 * h25 + 2 ^ 320 * h24 + 2 ^ 256 * h23 + 2 ^ 320 * h22 + 2 ^ 256 * h21 + 2 ^ 256 * h20 + 2 ^ 256 * h19 + 2 ^ 192 * h18 + 2 ^ 256 * h17 + 2 ^ 192 * h16 + 2 ^ 192 * h15 + 2 ^ 192 * h14 + 2 ^ 128 * h13 + 2 ^ 192 * h12 + 2 ^ 128 * h11 + 2 ^ 128 * h10 + 2 ^ 128 * h9 + 2 ^ 64 * h8 + 2 ^ 128 * h7 + 2 ^ 64 * h6 + 2 ^ 64 * h5 + 2 ^ 64 * h4 + h3 + h2
  have keyb : v30.toNat ≤ 2 := by have := b30; omega
  exact H l1 v3 v8 v13 v18 v23 v24 l25 u25 v28 v29 v30 c30 o30 key keyb

theorem multiply_mont3_wp {is : List Instr} {Q : Cpu → Prop}
    {rax rbx rcx rdx rsi rdi r8 r9 r10 r11 r12 r13 r14 r15 t1 t0 z P5 P4 P3 P2 P1 P0 N s0 s1 s2 s3 s4 s5 : UInt64} {cf of : Bool} {m : UInt64 → UInt64}
    (hN : (N.toNat * P0.toNat + 1) % 2 ^ 64 = 0)
    (hP5 : P5.toNat ≤ 2 ^ 61)
    (hcy : rcx.toNat ≤ 2)
    (H : ∀ (l1 : UInt64) (v3 : UInt64) (v8 : UInt64) (v13 : UInt64) (v18 : UInt64) (v23 : UInt64) (v24 : UInt64) (l25 : UInt64) (u25 : UInt64) (v28 : UInt64) (v29 : UInt64) (v30 : UInt64) (c30 : Bool) (o30 : Bool), (2 ^ 64 * v8.toNat + 2 ^ 128 * v13.toNat + 2 ^ 192 * v18.toNat + 2 ^ 256 * v23.toNat + 2 ^ 320 * v28.toNat + 2 ^ 384 * v29.toNat + 2 ^ 448 * v30.toNat = r10.toNat + 2 ^ 64 * r11.toNat + 2 ^ 128 * r12.toNat + 2 ^ 192 * r13.toNat + 2 ^ 256 * r14.toNat + 2 ^ 320 * r15.toNat + 2 ^ 384 * r8.toNat + 2 ^ 384 * rcx.toNat + l1.toNat * (P0.toNat + 2 ^ 64 * P1.toNat + 2 ^ 128 * P2.toNat + 2 ^ 192 * P3.toNat + 2 ^ 256 * P4.toNat + 2 ^ 320 * P5.toNat)) → (v30.toNat ≤ 2) → wp is Q ⟨l25, v24, v30, u25, rsi, rdi, 0xffffffffffffffc8, v29, l1, v3, v8, v13, v18, v23, v28, c30, o30, [t1, t0, z, P5, P4, P3, P2, P1, P0, N, s0, s1, s2, s3, s4, s5], m⟩) :
    wp (Asm.multiply_mont3 ++ is) Q ⟨rax, rbx, rcx, rdx, rsi, rdi, 0xffffffffffffffc8, r8, r9, r10, r11, r12, r13, r14, r15, cf, of, [t1, t0, z, P5, P4, P3, P2, P1, P0, N, s0, s1, s2, s3, s4, s5], m⟩ := by
  simp only [Asm.multiply_mont3, List.cons_append, List.nil_append]
  refine wp_mov rfl ?_
  dsimp only [Cpu.set, Cpu.get]
  refine wp_mul (stkRead_frame [t1, t0, z] P5 P4 P3 P2 P1 P0 N s0 s1 s2 s3 s4 s5).1 (fun l1 u1 c1 o1 h1 => ?_)
  dsimp only [Cpu.set, Cpu.get] at h1 ⊢
  have b1 := mul_hi h1 (u64_lt _) (u64_lt _)
  refine wp_mov rfl ?_
  dsimp only [Cpu.set, Cpu.get]
  refine wp_mov rfl ?_
  dsimp only [Cpu.set, Cpu.get]
  refine wp_mov (stkRead_frame [t1, t0, z] P5 P4 P3 P2 P1 P0 N s0 s1 s2 s3 s4 s5).2.1 ?_
  dsimp only [Cpu.set, Cpu.get]
  refine wp_mul rfl (fun l2 u2 c2 o2 h2 => ?_)
  dsimp only [Cpu.set, Cpu.get] at h2 ⊢
  have b2 := mul_hi h2 (u64_lt _) (u64_lt _)
  refine wp_add rfl (fun v3 c3 o3 h3 => ?_)
  dsimp only [Cpu.set, Cpu.get] at h3 ⊢
  have y3 := mont_low h1 h2 h3 (u64_lt _) hN
  rw [y3, Nat.zero_add] at h3
  refine wp_adc rfl (fun v4 c4 o4 h4 => ?_)
  dsimp only [Cpu.set, Cpu.get] at h4 ⊢
  obtain ⟨b4, z4⟩ := adc_small h4 (le_of_eq UInt64.toNat_zero) b2 (Bool.toNat_le _) (by norm_num)
  rw [z4, Nat.mul_zero, Nat.add_zero] at h4
  simp only [UInt64.toNat_zero, add_zero, zero_add] at h4
  refine wp_mov (stkRead_frame [t1, t0, z] P5 P4 P3 P2 P1 P0 N s0 s1 s2 s3 s4 s5).2.2.1 ?_
  dsimp only [Cpu.set, Cpu.get]
  refine wp_mul rfl (fun l5 u5 c5 o5 h5 => ?_)
  dsimp only [Cpu.set, Cpu.get] at h5 ⊢
  have b5 := mul_hi h5 (u64_lt _) (u64_lt _)
  refine wp_add rfl (fun v6 c6 o6 h6 => ?_)
  dsimp only [Cpu.set, Cpu.get] at h6 ⊢
  refine wp_adc rfl (fun v7 c7 o7 h7 => ?_)
  dsimp only [Cpu.set, Cpu.get] at h7 ⊢
  obtain ⟨b7, z7⟩ := adc_small h7 b5 (le_of_eq UInt64.toNat_zero) (Bool.toNat_le _) (by norm_num)
  rw [z7, Nat.mul_zero, Nat.add_zero] at h7
  simp only [UInt64.toNat_zero, add_zero, zero_add] at h7
  refine wp_add rfl (fun v8 c8 o8 h8 => ?_)
  dsimp only [Cpu.set, Cpu.get] at h8 ⊢
  refine wp_mov rfl ?_
  dsimp only [Cpu.set, Cpu.get]
  refine wp_adc rfl (fun v9 c9 o9 h9 => ?_)
  dsimp only [Cpu.set, Cpu.get] at h9 ⊢
  simp only [UInt64.toNat_zero, add_zero, zero_add] at h9
  have z9 := mac_top h5 h6 h7 h8 h9 (u64_lt _) (u64_lt _) (u64_lt _) (u64_lt _)
  rw [z9, Nat.mul_zero, Nat.add_zero] at h9
  refine wp_mov (stkRead_frame [t1, t0, z] P5 P4 P3 P2 P1 P0 N s0 s1 s2 s3 s4 s5).2.2.2.1 ?_
  dsimp only [Cpu.set, Cpu.get]
  refine wp_mul rfl (fun l10 u10 c10 o10 h10 => ?_)
  dsimp only [Cpu.set, Cpu.get] at h10 ⊢
  have b10 := mul_hi h10 (u64_lt _) (u64_lt _)
  refine wp_add rfl (fun v11 c11 o11 h11 => ?_)
  dsimp only [Cpu.set, Cpu.get] at h11 ⊢
  refine wp_adc rfl (fun v12 c12 o12 h12 => ?_)
  dsimp only [Cpu.set, Cpu.get] at h12 ⊢
  obtain ⟨b12, z12⟩ := adc_small h12 b10 (le_of_eq UInt64.toNat_zero) (Bool.toNat_le _) (by norm_num)
  rw [z12, Nat.mul_zero, Nat.add_zero] at h12
  simp only [UInt64.toNat_zero, add_zero, zero_add] at h12
  refine wp_add rfl (fun v13 c13 o13 h13 => ?_)
  dsimp only [Cpu.set, Cpu.get] at h13 ⊢
  refine wp_mov rfl ?_
  dsimp only [Cpu.set, Cpu.get]
  refine wp_adc rfl (fun v14 c14 o14 h14 => ?_)
  dsimp only [Cpu.set, Cpu.get] at h14 ⊢
  simp only [UInt64.toNat_zero, add_zero, zero_add] at h14
  have z14 := mac_top h10 h11 h12 h13 h14 (u64_lt _) (u64_lt _) (u64_lt _) (u64_lt _)
  rw [z14, Nat.mul_zero, Nat.add_zero] at h14
  refine wp_mov (stkRead_frame [t1, t0, z] P5 P4 P3 P2 P1 P0 N s0 s1 s2 s3 s4 s5).2.2.2.2.1 ?_
  dsimp only [Cpu.set, Cpu.get]
  refine wp_mul rfl (fun l15 u15 c15 o15 h15 => ?_)
  dsimp only [Cpu.set, Cpu.get] at h15 ⊢
  have b15 := mul_hi h15 (u64_lt _) (u64_lt _)
  refine wp_add rfl (fun v16 c16 o16 h16 => ?_)
  dsimp only [Cpu.set, Cpu.get] at h16 ⊢
  refine wp_adc rfl (fun v17 c17 o17 h17 => ?_)
  dsimp only [Cpu.set, Cpu.get] at h17 ⊢
  obtain ⟨b17, z17⟩ := adc_small h17 b15 (le_of_eq UInt64.toNat_zero) (Bool.toNat_le _) (by norm_num)
  rw [z17, Nat.mul_zero, Nat.add_zero] at h17
  simp only [UInt64.toNat_zero, add_zero, zero_add] at h17
  refine wp_add rfl (fun v18 c18 o18 h18 => ?_)
  dsimp only [Cpu.set, Cpu.get] at h18 ⊢
  refine wp_mov rfl ?_
  dsimp only [Cpu.set, Cpu.get]
  refine wp_adc rfl (fun v19 c19 o19 h19 => ?_)
  dsimp only [Cpu.set, Cpu.get] at h19 ⊢
  simp only [UInt64.toNat_zero, add_zero, zero_add] at h19
  have z19 := mac_top h15 h16 h17 h18 h19 (u64_lt _) (u64_lt _) (u64_lt _) (u64_lt _)
  rw [z19, Nat.mul_zero, Nat.add_zero] at h19
  refine wp_mov (stkRead_frame [t1, t0, z] P5 P4 P3 P2 P1 P0 N s0 s1 s2 s3 s4 s5).2.2.2.2.2.1 ?_
  dsimp only [Cpu.set, Cpu.get]
  refine wp_mul rfl (fun l20 u20 c20 o20 h20 => ?_)
  dsimp only [Cpu.set, Cpu.get] at h20 ⊢
  have b20 := mul_hi h20 (u64_lt _) (u64_lt _)
  refine wp_add rfl (fun v21 c21 o21 h21 => ?_)
  dsimp only [Cpu.set, Cpu.get] at h21 ⊢
  refine wp_adc rfl (fun v22 c22 o22 h22 => ?_)
  dsimp only [Cpu.set, Cpu.get] at h22 ⊢
  obtain ⟨b22, z22⟩ := adc_small h22 b20 (le_of_eq UInt64.toNat_zero) (Bool.toNat_le _) (by norm_num)
  rw [z22, Nat.mul_zero, Nat.add_zero] at h22
  simp only [UInt64.toNat_zero, add_zero, zero_add] at h22
  refine wp_add rfl (fun v23 c23 o23 h23 => ?_)
  dsimp only [Cpu.set, Cpu.get] at h23 ⊢
  refine wp_mov rfl ?_
  dsimp only [Cpu.set, Cpu.get]
  refine wp_adc rfl (fun v24 c24 o24 h24 => ?_)
  dsimp only [Cpu.set, Cpu.get] at h24 ⊢
  simp only [UInt64.toNat_zero, add_zero, zero_add] at h24
  have z24 := mac_top h20 h21 h22 h23 h24 (u64_lt _) (u64_lt _) (u64_lt _) (u64_lt _)
  rw [z24, Nat.mul_zero, Nat.add_zero] at h24
  refine wp_mov (stkRead_frame [t1, t0, z] P5 P4 P3 P2 P1 P0 N s0 s1 s2 s3 s4 s5).2.2.2.2.2.2 ?_
  dsimp only [Cpu.set, Cpu.get]
  refine wp_mul rfl (fun l25 u25 c25 o25 h25 => ?_)
  dsimp only [Cpu.set, Cpu.get] at h25 ⊢
  rw [Nat.mul_comm P5.toNat] at h25
  have b25 := mul_hi61 h25 (u64_lt _) hP5
  refine wp_add rfl (fun v26 c26 o26 h26 => ?_)
  dsimp only [Cpu.set, Cpu.get] at h26 ⊢
  refine wp_adc rfl (fun v27 c27 o27 h27 => ?_)
  dsimp only [Cpu.set, Cpu.get] at h27 ⊢
  obtain ⟨b27, z27⟩ := adc_small h27 hcy b25 (Bool.toNat_le _) (by norm_num)
  rw [z27, Nat.mul_zero, Nat.add_zero] at h27
  refine wp_add rfl (fun v28 c28 o28 h28 => ?_)
  dsimp only [Cpu.set, Cpu.get] at h28 ⊢
  refine wp_adc rfl (fun v29 c29 o29 h29 => ?_)
  dsimp only [Cpu.set, Cpu.get] at h29 ⊢
  refine wp_mov rfl ?_
  dsimp only [Cpu.set, Cpu.get]
  refine wp_adc rfl (fun v30 c30 o30 h30 => ?_)
  dsimp only [Cpu.set, Cpu.get] at h30 ⊢
  obtain ⟨b30, z30⟩ := adc_small h30 (le_of_eq UInt64.toNat_zero) (le_of_eq UInt64.toNat_zero) (Bool.toNat_le _) (by norm_num)
  rw [z30, Nat.mul_zero, Nat.add_zero] at h30
  simp only [UInt64.toNat_zero, add_zero, zero_add] at h30
  have key : 2 ^ 64 * v8.toNat + 2 ^ 128 * v13.toNat + 2 ^ 192 * v18.toNat + 2 ^ 256 * v23.toNat + 2 ^ 320 * v28.toNat + 2 ^ 384 * v29.toNat + 2 ^ 448 * v30.toNat = r10.toNat + 2 ^ 64 * r11.toNat + 2 ^ 128 * r12.toNat + 2 ^ 192 * r13.toNat + 2 ^ 256 * r14.toNat + 2 ^ 320 * r15.toNat + 2 ^ 384 * r8.toNat + 2 ^ 384 * rcx.toNat + l1.toNat * (P0.toNat + 2 ^ 64 * P1.toNat + 2 ^ 128 * P2.toNat + 2 ^ 192 * P3.toNat + 2 ^ 256 * P4.toNat + 2 ^ 320 * P5.toNat) := by
    linear_combination 2 ^ 448 * h30 + 2 ^ 384 * h29 + 2 ^ 320 * h28 + 2 ^ 384 * h27 + 2 ^ 320 * h26 + 2 ^ 320 * h25 + 2 ^ 320 * h24 + 2 ^ 256 * h23 + 2 ^ 320 * h22 + 2 ^ 256 * h21 + 2 ^ 256 * h20 + 2 ^ 256 * h19 + 2 ^ 192 * h18 + 2 ^ 256 * h17 + 2 ^ 192 * h16 + 2 ^ 192 * h15 + 2 ^ 192 * h14 + 2 ^ 128 * h13 + 2 ^ 192 * h12 + 2 ^ 128 * h11 + 2 ^ 128 * h10 + 2 ^ 128 * h9 + 2 ^ 64 * h8 + 2 ^ 128 * h7 + 2 ^ 64 * h6 + 2 ^ 64 * h5 + 2 ^ 64 * h4 + h3 + h2
  have keyb : v30.toNat ≤ 2 := by have := b30; omega
  exact H l1 v3 v8 v13 v18 v23 v24 l25 u25 v28 v29 v30 c30 o30 key keyb

theorem multiply_mont4_wp {is : List Instr} {Q : Cpu → Prop}
    {rax rbx rcx rdx rsi rdi r8 r9 r10 r11 r12 r13 r14 r15 t1 t0 z P5 P4 P3 P2 P1 P0 N s0 s1 s2 s3 s4 s5 : UInt64} {cf of : Bool} {m : UInt64 → UInt64}
    (hN : (N.toNat * P0.toNat + 1) % 2 ^ 64 = 0)
    (hP5 : P5.toNat ≤ 2 ^ 61)
    (hcy : rcx.toNat ≤ 2)
    (H : ∀ (l1 : UInt64) (v3 : UInt64) (v8 : UInt64) (v13 : UInt64) (v18 : UInt64) (v23 : UInt64) (v24 : UInt64) (l25 : UInt64) (u25 : UInt64) (v28 : UInt64) (v29 : UInt64) (v30 : UInt64) (c30 : Bool) (o30 : Bool), (2 ^ 64 * v8.toNat + 2 ^ 128 * v13.toNat + 2 ^ 192 * v18.toNat + 2 ^ 256 * v23.toNat + 2 ^ 320 * v28.toNat + 2 ^ 384 * v29.toNat + 2 ^ 448 * v30.toNat = r11.toNat + 2 ^ 64 * r12.toNat + 2 ^ 128 * r13.toNat + 2 ^ 192 * r14.toNat + 2 ^ 256 * r15.toNat + 2 ^ 320 * r8.toNat + 2 ^ 384 * t1.toNat + 2 ^ 384 * rcx.toNat + l1.toNat * (P0.toNat + 2 ^ 64 * P1.toNat + 2 ^ 128 * P2.toNat + 2 ^ 192 * P3.toNat + 2 ^ 256 * P4.toNat + 2 ^ 320 * P5.toNat)) → (v30.toNat ≤ 2) → wp is Q ⟨l25, v24, v30, u25, rsi, v29, 0xffffffffffffffc8, v28, l1, r10, v3, v8, v13, v18, v23, c30, o30, [t0, z, P5, P4, P3, P2, P1, P0, N, s0, s1, s2, s3, s4, s5], m⟩) :
    wp (Asm.multiply_mont4 ++ is) Q ⟨rax, rbx, rcx, rdx, rsi, rdi, 0xffffffffffffffc8, r8, r9, r10, r11, r12, r13, r14, r15, cf, of, [t1, t0, z, P5, P4, P3, P2, P1, P0, N, s0, s1, s2, s3, s4, s5], m⟩ := by
  simp only [Asm.multiply_mont4, List.cons_append, List.nil_append]
  refine wp_mov rfl ?_
  dsimp only [Cpu.set, Cpu.get]
  refine wp_mul (stkRead_frame [t1, t0, z] P5 P4 P3 P2 P1 P0 N s0 s1 s2 s3 s4 s5).1 (fun l1 u1 c1 o1 h1 => ?_)
  dsimp only [Cpu.set, Cpu.get] at h1 ⊢
  have b1 := mul_hi h1 (u64_lt _) (u64_lt _)
  refine wp_mov rfl ?_
  dsimp only [Cpu.set, Cpu.get]
  refine wp_mov rfl ?_
  dsimp only [Cpu.set, Cpu.get]
  refine wp_mov (stkRead_frame [t1, t0, z] P5 P4 P3 P2 P1 P0 N s0 s1 s2 s3 s4 s5).2.1 ?_
  dsimp only [Cpu.set, Cpu.get]
  refine wp_mul rfl (fun l2 u2 c2 o2 h2 => ?_)
  dsimp only [Cpu.set, Cpu.get] at h2 ⊢
  have b2 := mul_hi h2 (u64_lt _) (u64_lt _)
  refine wp_add rfl (fun v3 c3 o3 h3 => ?_)
  dsimp only [Cpu.set, Cpu.get] at h3 ⊢
  have y3 := mont_low h1 h2 h3 (u64_lt _) hN
  rw [y3, Nat.zero_add] at h3
  refine wp_adc rfl (fun v4 c4 o4 h4 => ?_)
  dsimp only [Cpu.set, Cpu.get] at h4 ⊢
  obtain ⟨b4, z4⟩ := adc_small h4 (le_of_eq UInt64.toNat_zero) b2 (Bool.toNat_le _) (by norm_num)
  rw [z4, Nat.mul_zero, Nat.add_zero] at h4
  simp only [UInt64.toNat_zero, add_zero, zero_add] at h4
  refine wp_mov (stkRead_frame [t1, t0, z] P5 P4 P3 P2 P1 P0 N s0 s1 s2 s3 s4 s5).2.2.1 ?_
  dsimp only [Cpu.set, Cpu.get]
  refine wp_mul rfl (fun l5 u5 c5 o5 h5 => ?_)
  dsimp only [Cpu.set, Cpu.get] at h5 ⊢
  have b5 := mul_hi h5 (u64_lt _) (u64_lt _)
  refine wp_add rfl (fun v6 c6 o6 h6 => ?_)
  dsimp only [Cpu.set, Cpu.get] at h6 ⊢
  refine wp_adc rfl (fun v7 c7 o7 h7 => ?_)
  dsimp only [Cpu.set, Cpu.get] at h7 ⊢
  obtain ⟨b7, z7⟩ := adc_small h7 b5 (le_of_eq UInt64.toNat_zero) (Bool.toNat_le _) (by norm_num)
  rw [z7, Nat.mul_zero, Nat.add_zero] at h7
  simp only [UInt64.toNat_zero, add_zero, zero_add] at h7
  refine wp_add rfl (fun v8 c8 o8 h8 => ?_)
  dsimp only [Cpu.set, Cpu.get] at h8 ⊢
  refine wp_mov rfl ?_
  dsimp only [Cpu.set, Cpu.get]
  refine wp_adc rfl (fun v9 c9 o9 h9 => ?_)
  dsimp only [Cpu.set, Cpu.get] at h9 ⊢
  simp only [UInt64.toNat_zero, add_zero, zero_add] at h9
  have z9 := mac_top h5 h6 h7 h8 h9 (u64_lt _) (u64_lt _) (u64_lt _) (u64_lt _)
  rw [z9, Nat.mul_zero, Nat.add_zero] at h9
  refine wp_mov (stkRead_frame [t1, t0, z] P5 P4 P3 P2 P1 P0 N s0 s1 s2 s3 s4 s5).2.2.2.1 ?_
  dsimp only [Cpu.set, Cpu.get]
  refine wp_mul rfl (fun l10 u10 c10 o10 h10 => ?_)
  dsimp only [Cpu.set, Cpu.get] at h10 ⊢
  have b10 := mul_hi h10 (u64_lt _) (u64_lt _)
  refine wp_add rfl (fun v11 c11 o11 h11 => ?_)
  dsimp only [Cpu.set, Cpu.get] at h11 ⊢
  refine wp_adc rfl (fun v12 c12 o12 h12 => ?_)
  dsimp only [Cpu.set, Cpu.get] at h12 ⊢
  obtain ⟨b12, z12⟩ := adc_small h12 b10 (le_of_eq UInt64.toNat_zero) (Bool.toNat_le _) (by norm_num)
  rw [z12, Nat.mul_zero, Nat.add_zero] at h12
  simp only [UInt64.toNat_zero, add_zero, zero_add] at h12
  refine wp_add rfl (fun v13 c13 o13 h13 => ?_)
  dsimp only [Cpu.set, Cpu.get] at h13 ⊢
  refine wp_mov rfl ?_
  dsimp only [Cpu.set, Cpu.get]
  refine wp_adc rfl (fun v14 c14 o14 h14 => ?_)
  dsimp only [Cpu.set, Cpu.get] at h14 ⊢
  simp only [UInt64.toNat_zero, add_zero, zero_add] at h14
  have z14 := mac_top h10 h11 h12 h13 h14 (u64_lt _) (u64_lt _) (u64_lt _) (u64_lt _)
  rw [z14, Nat.mul_zero, Nat.add_zero] at h14
  refine wp_mov (stkRead_frame [t1, t0, z] P5 P4 P3 P2 P1 P0 N s0 s1 s2 s3 s4 s5).2.2.2.2.1 ?_
  dsimp only [Cpu.set, Cpu.get]
  refine wp_mul rfl (fun l15 u15 c15 o15 h15 => ?_)
  dsimp only [Cpu.set, Cpu.get] at h15 ⊢
  have b15 := mul_hi h15 (u64_lt _) (u64_lt _)
  refine wp_add rfl (fun v16 c16 o16 h16 => ?_)
  dsimp only [Cpu.set, Cpu.get] at h16 ⊢
  refine wp_adc rfl (fun v17 c17 o17 h17 => ?_)
  dsimp only [Cpu.set, Cpu.get] at h17 ⊢
  obtain ⟨b17, z17⟩ := adc_small h17 b15 (le_of_eq UInt64.toNat_zero) (Bool.toNat_le _) (by norm_num)
  rw [z17, Nat.mul_zero, Nat.add_zero] at h17
  simp only [UInt64.toNat_zero, add_zero, zero_add] at h17
  refine wp_add rfl (fun v18 c18 o18 h18 => ?_)
  dsimp only [Cpu.set, Cpu.get] at h18 ⊢
  refine wp_mov rfl ?_
  dsimp only [Cpu.set, Cpu.get]
  refine wp_adc rfl (fun v19 c19 o19 h19 => ?_)
  dsimp only [Cpu.set, Cpu.get] at h19 ⊢
  simp only [UInt64.toNat_zero, add_zero, zero_add] at h19
  have z19 := mac_top h15 h16 h17 h18 h19 (u64_lt _) (u64_lt _) (u64_lt _) (u64_lt _)
  rw [z19, Nat.mul_zero, Nat.add_zero] at h19
  refine wp_mov (stkRead_frame [t1, t0, z] P5 P4 P3 P2 P1 P0 N s0 s1 s2 s3 s4 s5).2.2.2.2.2.1 ?_
  dsimp only [Cpu.set, Cpu.get]
  refine wp_mul rfl (fun l20 u20 c20 o20 h20 => ?_)
  dsimp only [Cpu.set, Cpu.get] at h20 ⊢
  have b20 := mul_hi h20 (u64_lt _) (u64_lt _)
  refine wp_add rfl (fun v21 c21 o21 h21 => ?_)
  dsimp only [Cpu.set, Cpu.get] at h21 ⊢
  refine wp_adc rfl (fun v22 c22 o22 h22 => ?_)
  dsimp only [Cpu.set, Cpu.get] at h22 ⊢
  obtain ⟨b22, z22⟩ := adc_small h22 b20 (le_of_eq UInt64.toNat_zero) (Bool.toNat_le _) (by norm_num)
  rw [z22, Nat.mul_zero, Nat.add_zero] at h22
  simp only [UInt64.toNat_zero, add_zero, zero_add] at h22
  refine wp_add rfl (fun v23 c23 o23 h23 => ?_)
  dsimp only [Cpu.set, Cpu.get] at h23 ⊢
  refine wp_mov rfl ?_
  dsimp only [Cpu.set, Cpu.get]
  refine wp_adc rfl (fun v24 c24 o24 h24 => ?_)
  dsimp only [Cpu.set, Cpu.get] at h24 ⊢
  simp only [UInt64.toNat_zero, add_zero, zero_add] at h24
  have z24 := mac_top h20 h21 h22 h23 h24 (u64_lt _) (u64_lt _) (u64_lt _) (u64_lt _)
  rw [z24, Nat.mul_zero, Nat.add_zero] at h24
  refine wp_mov (stkRead_frame [t1, t0, z] P5 P4 P3 P2 P1 P0 N s0 s1 s2 s3 s4 s5).2.2.2.2.2.2 ?_
  dsimp only [Cpu.set, Cpu.get]
  refine wp_mul rfl (fun l25 u25 c25 o25 h25 => ?_)
  dsimp only [Cpu.set, Cpu.get] at h25 ⊢
  rw [Nat.mul_comm P5.toNat] at h25
  have b25 := mul_hi61 h25 (u64_lt _) hP5
  refine wp_add rfl (fun v26 c26 o26 h26 => ?_)
  dsimp only [Cpu.set, Cpu.get] at h26 ⊢
  refine wp_adc rfl (fun v27 c27 o27 h27 => ?_)
  dsimp only [Cpu.set, Cpu.get] at h27 ⊢
  obtain ⟨b27, z27⟩ := adc_small h27 hcy b25 (Bool.toNat_le _) (by norm_num)
  rw [z27, Nat.mul_zero, Nat.add_zero] at h27
  refine wp_add rfl (fun v28 c28 o28 h28 => ?_)
  dsimp only [Cpu.set, Cpu.get] at h28 ⊢
  refine wp_pop rfl ?_
  dsimp only [Cpu.set]
  refine wp_adc rfl (fun v29 c29 o29 h29 => ?_)
  dsimp only [Cpu.set, Cpu.get] at h29 ⊢
  refine wp_mov rfl ?_
  dsimp only [Cpu.set, Cpu.get]
  refine wp_adc rfl (fun v30 c30 o30 h30 => ?_)
  dsimp only [Cpu.set, Cpu.get] at h30 ⊢
  obtain ⟨b30, z30⟩ := adc_small h30 (le_of_eq UInt64.toNat_zero) (le_of_eq UInt64.toNat_zero) (Bool.toNat_le _) (by norm_num)
  rw [z30, Nat.mul_zero, Nat.add_zero] at h30
  simp only [UInt64.toNat_zero, add_zero, zero_add] at h30
  have key : 2 ^ 64 * v8.toNat + 2 ^ 128 * v13.toNat + 2 ^ 192 * v18.toNat + 2 ^ 256 * v23.toNat + 2 ^ 320 * v28.toNat + 2 ^ 384 * v29.toNat + 2 ^ 448 * v30.toNat = r11.toNat + 2 ^ 64 * r12.toNat + 2 ^ 128 * r13.toNat + 2 ^ 192 * r14.toNat + 2 ^ 256 * r15.toNat + 2 ^ 320 * r8.toNat + 2 ^ 384 * t1.toNat + 2 ^ 384 * rcx.toNat + l1.toNat * (P0.toNat + 2 ^ 64 * P1.toNat + 2 ^ 128 * P2.toNat + 2 ^ 192 * P3.toNat + 2 ^ 256 * P4.toNat + 2 ^ 320 * P5.toNat) := by
    linear_combination 2 ^ 448 * h30 + 2 ^ 384 * h29 + 2 ^ 320 * h28 + 2 ^ 384 * h27 + 2 ^ 320 * h26 + 2 ^ 320 * h25 + 2 ^ 320 * h24 + 2 ^ 256 * h23 + 2 ^ 320 * h22 + 2 ^ 256 * h21 + 2 ^ 256 * h20 + 2 ^ 256 * h19 + 2 ^ 192 * h18 + 2 ^ 256 * h17 + 2 ^ 192 * h16 + 2 ^ 192 * h15 + 2 ^ 192 * h14 + 2 ^ 128 * h13 + 2 ^ 192 * h12 + 2 ^ 128 * h11 + 2 ^ 128 * h10 + 2 ^ 128 * h9 + 2 ^ 64 * h8 + 2 ^ 128 * h7 + 2 ^ 64 * h6 + 2 ^ 64 * h5 + 2 ^ 64 * h4 + h3 + h2
  have keyb : v30.toNat ≤ 2 := by have := b30; omega
  exact H l1 v3 v8 v13 v18 v23 v24 l25 u25 v28 v29 v30 c30 o30 key keyb

theorem multiply_mont5_wp {is : List Instr} {Q : Cpu → Prop}
    {rax rbx rcx rdx rsi rdi r8 r9 r10 r11 r12 r13 r14 r15 t0 z P5 P4 P3 P2 P1 P0 N s0 s1 s2 s3 s4 s5 : UInt64} {cf of : Bool} {m : UInt64 → UInt64}
    (hN : (N.toNat * P0.toNat + 1) % 2 ^ 64 = 0)
    (hP5 : P5.toNat ≤ 2 ^ 61)
    (hcy : rcx.toNat ≤ 2)
    (H : ∀ (l1 : UInt64) (v3 : UInt64) (v8 : UInt64) (v13 : UInt64) (v18 : UInt64) (v23 : UInt64) (v24 : UInt64) (l25 : UInt64) (u25 : UInt64) (v28 : UInt64) (v29 : UInt64) (c29 : Bool) (o29 : Bool), (2 ^ 64 * v8.toNat + 2 ^ 128 * v13.toNat + 2 ^ 192 * v18.toNat + 2 ^ 256 * v23.toNat + 2 ^ 320 * v28.toNat + 2 ^ 384 * v29.toNat + 2 ^ 448 * c29.toNat = r12.toNat + 2 ^ 64 * r13.toNat + 2 ^ 128 * r14.toNat + 2 ^ 192 * r15.toNat + 2 ^ 256 * r8.toNat + 2 ^ 320 * rdi.toNat + 2 ^ 384 * t0.toNat + 2 ^ 384 * rcx.toNat + l1.toNat * (P0.toNat + 2 ^ 64 * P1.toNat + 2 ^ 128 * P2.toNat + 2 ^ 192 * P3.toNat + 2 ^ 256 * P4.toNat + 2 ^ 320 * P5.toNat)) → wp is Q ⟨l25, v24, v29, u25, t0, v28, 0xffffffffffffffc8, v23, l1, r10, r11, v3, v8, v13, v18, c29, o29, [z, P5, P4, P3, P2, P1, P0, N, s0, s1, s2, s3, s4, s5], m⟩) :
    wp (Asm.multiply_mont5 ++ is) Q ⟨rax, rbx, rcx, rdx, rsi, rdi, 0xffffffffffffffc8, r8, r9, r10, r11, r12, r13, r14, r15, cf, of, [t0, z, P5, P4, P3, P2, P1, P0, N, s0, s1, s2, s3, s4, s5], m⟩ := by
  simp only [Asm.multiply_mont5, List.cons_append, List.nil_append]
  refine wp_mov rfl ?_
  dsimp only [Cpu.set, Cpu.get]
  refine wp_mul (stkRead_frame [t0, z] P5 P4 P3 P2 P1 P0 N s0 s1 s2 s3 s4 s5).1 (fun l1 u1 c1 o1 h1 => ?_)
  dsimp only [Cpu.set, Cpu.get] at h1 ⊢
  have b1 := mul_hi h1 (u64_lt _) (u64_lt _)
  refine wp_mov rfl ?_
  dsimp only [Cpu.set, Cpu.get]
  refine wp_mov rfl ?_
  dsimp only [Cpu.set, Cpu.get]
  refine wp_mov (stkRead_frame [t0, z] P5 P4 P3 P2 P1 P0 N s0 s1 s2 s3 s4 s5).2.1 ?_
  dsimp only [Cpu.set, Cpu.get]
  refine wp_mul rfl (fun l2 u2 c2 o2 h2 => ?_)
  dsimp only [Cpu.set, Cpu.get] at h2 ⊢
  have b2 := mul_hi h2 (u64_lt _) (u64_lt _)
  refine wp_add rfl (fun v3 c3 o3 h3 => ?_)
  dsimp only [Cpu.set, Cpu.get] at h3 ⊢
  have y3 := mont_low h1 h2 h3 (u64_lt _) hN
  rw [y3, Nat.zero_add] at h3
  refine wp_adc rfl (fun v4 c4 o4 h4 => ?_)
  dsimp only [Cpu.set, Cpu.get] at h4 ⊢
  obtain ⟨b4, z4⟩ := adc_small h4 (le_of_eq UInt64.toNat_zero) b2 (Bool.toNat_le _) (by norm_num)
  rw [z4, Nat.mul_zero, Nat.add_zero] at h4
  simp only [UInt64.toNat_zero, add_zero, zero_add] at h4
  refine wp_mov (stkRead_frame [t0, z] P5 P4 P3 P2 P1 P0 N s0 s1 s2 s3 s4 s5).2.2.1 ?_
  dsimp only [Cpu.set, Cpu.get]
  refine wp_mul rfl (fun l5 u5 c5 o5 h5 => ?_)
  dsimp only [Cpu.set, Cpu.get] at h5 ⊢
  have b5 := mul_hi h5 (u64_lt _) (u64_lt _)
  refine wp_add rfl (fun v6 c6 o6 h6 => ?_)
  dsimp only [Cpu.set, Cpu.get] at h6 ⊢
  refine wp_adc rfl (fun v7 c7 o7 h7 => ?_)
  dsimp only [Cpu.set, Cpu.get] at h7 ⊢
  obtain ⟨b7, z7⟩ := adc_small h7 b5 (le_of_eq UInt64.toNat_zero) (Bool.toNat_le _) (by norm_num)
  rw [z7, Nat.mul_zero, Nat.add_zero] at h7
  simp only [UInt64.toNat_zero, add_zero, zero_add] at h7
  refine wp_add rfl (fun v8 c8 o8 h8 => ?_)
  dsimp only [Cpu.set, Cpu.get] at h8 ⊢
  refine wp_mov rfl ?_
  dsimp only [Cpu.set, Cpu.get]
  refine wp_adc rfl (fun v9 c9 o9 h9 => ?_)
  dsimp only [Cpu.set, Cpu.get] at h9 ⊢
  simp only [UInt64.toNat_zero, add_zero, zero_add] at h9
  have z9 := mac_top h5 h6 h7 h8 h9 (u64_lt _) (u64_lt _) (u64_lt _) (u64_lt _)
  rw [z9, Nat.mul_zero, Nat.add_zero] at h9
  refine wp_mov (stkRead_frame [t0, z] P5 P4 P3 P2 P1 P0 N s0 s1 s2 s3 s4 s5).2.2.2.1 ?_
  dsimp only [Cpu.set, Cpu.get]
  refine wp_mul rfl (fun l10 u10 c10 o10 h10 => ?_)
  dsimp only [Cpu.set, Cpu.get] at h10 ⊢
  have b10 := mul_hi h10 (u64_lt _) (u64_lt _)
  refine wp_add rfl (fun v11 c11 o11 h11 => ?_)
  dsimp only [Cpu.set, Cpu.get] at h11 ⊢
  refine wp_adc rfl (fun v12 c12 o12 h12 => ?_)
  dsimp only [Cpu.set, Cpu.get] at h12 ⊢
  obtain ⟨b12, z12⟩ := adc_small h12 b10 (le_of_eq UInt64.toNat_zero) (Bool.toNat_le _) (by norm_num)
  rw [z12, Nat.mul_zero, Nat.add_zero] at h12
  simp only [UInt64.toNat_zero, add_zero, zero_add] at h12
  refine wp_add rfl (fun v13 c13 o13 h13 => ?_)
  dsimp only [Cpu.set, Cpu.get] at h13 ⊢
  refine wp_mov rfl ?_
  dsimp only [Cpu.set, Cpu.get]
  refine wp_adc rfl (fun v14 c14 o14 h14 => ?_)
  dsimp only [Cpu.set, Cpu.get] at h14 ⊢
  simp only [UInt64.toNat_zero, add_zero, zero_add] at h14
  have z14 := mac_top h10 h11 h12 h13 h14 (u64_lt _) (u64_lt _) (u64_lt _) (u64_lt _)
  rw [z14, Nat.mul_zero, Nat.add_zero] at h14
  refine wp_mov (stkRead_frame [t0, z] P5 P4 P3 P2 P1 P0 N s0 s1 s2 s3 s4 s5).2.2.2.2.1 ?_
  dsimp only [Cpu.set, Cpu.get]
  refine wp_mul rfl (fun l15 u15 c15 o15 h15 => ?_)
  dsimp only [Cpu.set, Cpu.get] at h15 ⊢
  have b15 := mul_hi h15 (u64_lt _) (u64_lt _)
  refine wp_add rfl (fun v16 c16 o16 h16 => ?_)
  dsimp only [Cpu.set, Cpu.get] at h16 ⊢
  refine wp_adc rfl (fun v17 c17 o17 h17 => ?_)
  dsimp only [Cpu.set, Cpu.get] at h17 ⊢
  obtain ⟨b17, z17⟩ := adc_small h17 b15 (le_of_eq UInt64.toNat_zero) (Bool.toNat_le _) (by norm_num)
  rw [z17, Nat.mul_zero, Nat.add_zero] at h17
  simp only [UInt64.toNat_zero, add_zero, zero_add] at h17
  refine wp_add rfl (fun v18 c18 o18 h18 => ?_)
  dsimp only [Cpu.set, Cpu.get] at h18 ⊢
  refine wp_mov rfl ?_
  dsimp only [Cpu.set, Cpu.get]
  refine wp_adc rfl (fun v19 c19 o19 h19 => ?_)
  dsimp only [Cpu.set, Cpu.get] at h19 ⊢
  simp only [UInt64.toNat_zero, add_zero, zero_add] at h19
  have z19 := mac_top h15 h16 h17 h18 h19 (u64_lt _) (u64_lt _) (u64_lt _) (u64_lt _)
  rw [z19, Nat.mul_zero, Nat.add_zero] at h19
  refine wp_mov (stkRead_frame [t0, z] P5 P4 P3 P2 P1 P0 N s0 s1 s2 s3 s4 s5).2.2.2.2.2.1 ?_
  dsimp only [Cpu.set, Cpu.get]
  refine wp_mul rfl (fun l20 u20 c20 o20 h20 => ?_)
  dsimp only [Cpu.set, Cpu.get] at h20 ⊢
  have b20 := mul_hi h20 (u64_lt _) (u64_lt _)
  refine wp_add rfl (fun v21 c21 o21 h21 => ?_)
  dsimp only [Cpu.set, Cpu.get] at h21 ⊢
  refine wp_adc rfl (fun v22 c22 o22 h22 => ?_)
  dsimp only [Cpu.set, Cpu.get] at h22 ⊢
  obtain ⟨b22, z22⟩ := adc_small h22 b20 (le_of_eq UInt64.toNat_zero) (Bool.toNat_le _) (by norm_num)
  rw [z22, Nat.mul_zero, Nat.add_zero] at h22
  simp only [UInt64.toNat_zero, add_zero, zero_add] at h22
  refine wp_add rfl (fun v23 c23 o23 h23 => ?_)
  dsimp only [Cpu.set, Cpu.get] at h23 ⊢
  refine wp_mov rfl ?_
  dsimp only [Cpu.set, Cpu.get]
  refine wp_adc rfl (fun v24 c24 o24 h24 => ?_)
  dsimp only [Cpu.set, Cpu.get] at h24 ⊢
  simp only [UInt64.toNat_zero, add_zero, zero_add] at h24
  have z24 := mac_top h20 h21 h22 h23 h24 (u64_lt _) (u64_lt _) (u64_lt _) (u64_lt _)
  rw [z24, Nat.mul_zero, Nat.add_zero] at h24
  refine wp_mov (stkRead_frame [t0, z] P5 P4 P3 P2 P1 P0 N s0 s1 s2 s3 s4 s5).2.2.2.2.2.2 ?_
  dsimp only [Cpu.set, Cpu.get]
  refine wp_mul rfl (fun l25 u25 c25 o25 h25 => ?_)
  dsimp only [Cpu.set, Cpu.get] at h25 ⊢
  rw [Nat.mul_comm P5.toNat] at h25
  have b25 := mul_hi61 h25 (u64_lt _) hP5
  refine wp_add rfl (fun v26 c26 o26 h26 => ?_)
  dsimp only [Cpu.set, Cpu.get] at h26 ⊢
  refine wp_adc rfl (fun v27 c27 o27 h27 => ?_)
  dsimp only [Cpu.set, Cpu.get] at h27 ⊢
  obtain ⟨b27, z27⟩ := adc_small h27 hcy b25 (Bool.toNat_le _) (by norm_num)
  rw [z27, Nat.mul_zero, Nat.add_zero] at h27
  refine wp_add rfl (fun v28 c28 o28 h28 => ?_)
  dsimp only [Cpu.set, Cpu.get] at h28 ⊢
  refine wp_pop rfl ?_
  dsimp only [Cpu.set]
  refine wp_adc rfl (fun v29 c29 o29 h29 => ?_)
  dsimp only [Cpu.set, Cpu.get] at h29 ⊢
  have key : 2 ^ 64 * v8.toNat + 2 ^ 128 * v13.toNat + 2 ^ 192 * v18.toNat + 2 ^ 256 * v23.toNat + 2 ^ 320 * v28.toNat + 2 ^ 384 * v29.toNat + 2 ^ 448 * c29.toNat = r12.toNat + 2 ^ 64 * r13.toNat + 2 ^ 128 * r14.toNat + 2 ^ 192 * r15.toNat + 2 ^ 256 * r8.toNat + 2 ^ 320 * rdi.toNat + 2 ^ 384 * t0.toNat + 2 ^ 384 * rcx.toNat + l1.toNat * (P0.toNat + 2 ^ 64 * P1.toNat + 2 ^ 128 * P2.toNat + 2 ^ 192 * P3.toNat + 2 ^ 256 * P4.toNat + 2 ^ 320 * P5.toNat) := by
    linear_combination 2 ^ 384 * h29 + 2 ^ 320 * h28 + 2 ^ 384 * h27 + 2 ^ 320 * h26 + 2 ^ 320 * h25 + 2 ^ 320 * h24 + 2 ^ 256 * h23 + 2 ^ 320 * h22 + 2 ^ 256 * h21 + 2 ^ 256 * h20 + 2 ^ 256 * h19 + 2 ^ 192 * h18 + 2 ^ 256 * h17 + 2 ^ 192 * h16 + 2 ^ 192 * h15 + 2 ^ 192 * h14 + 2 ^ 128 * h13 + 2 ^ 192 * h12 + 2 ^ 128 * h11 + 2 ^ 128 * h10 + 2 ^ 128 * h9 + 2 ^ 64 * h8 + 2 ^ 128 * h7 + 2 ^ 64 * h6 + 2 ^ 64 * h5 + 2 ^ 64 * h4 + h3 + h2
  exact H l1 v3 v8 v13 v18 v23 v24 l25 u25 v28 v29 c29 o29 key

theorem multiply_red_wp {is : List Instr} {Q : Cpu → Prop}
    {rax rbx rcx rdx rsi rdi r8 r9 r10 r11 r12 r13 r14 r15 z P5 P4 P3 P2 P1 P0 N s0 s1 s2 s3 s4 s5 : UInt64} {cf of : Bool} {m : UInt64 → UInt64}
    (H : ∀ (v1 : UInt64) (v2 : UInt64) (v3 : UInt64) (v4 : UInt64) (v5 : UInt64) (v6 : UInt64) (c6 : Bool) (o6 : Bool), (v1.toNat + 2 ^ 64 * v2.toNat + 2 ^ 128 * v3.toNat + 2 ^ 192 * v4.toNat + 2 ^ 256 * v5.toNat + 2 ^ 320 * v6.toNat + (P0.toNat + 2 ^ 64 * P1.toNat + 2 ^ 128 * P2.toNat + 2 ^ 192 * P3.toNat + 2 ^ 256 * P4.toNat + 2 ^ 320 * P5.toNat) = r13.toNat + 2 ^ 64 * r14.toNat + 2 ^ 128 * r15.toNat + 2 ^ 192 * r8.toNat + 2 ^ 256 * rdi.toNat + 2 ^ 320 * rcx.toNat + 2 ^ 384 * c6.toNat) → wp is Q ⟨v4, v5, rcx, rdx, rsi, rdi, 0xffffffffffffffc8, r8, v6, v1, v2, v3, r13, r14, r15, c6, o6, [z, P5, P4, P3, P2, P1, P0, N, s0, s1, s2, s3, s4, s5], m⟩) :
    wp (Asm.multiply_red ++ is) Q ⟨rax, rbx, rcx, rdx, rsi, rdi, 0xffffffffffffffc8, r8, r9, r10, r11, r12, r13, r14, r15, cf, of, [z, P5, P4, P3, P2, P1, P0, N, s0, s1, s2, s3, s4, s5], m⟩ := by
  simp only [Asm.multiply_red, List.cons_append, List.nil_append]
  refine wp_mov rfl ?_
  dsimp only [Cpu.set, Cpu.get]
  refine wp_sub (stkRead_frame [z] P5 P4 P3 P2 P1 P0 N s0 s1 s2 s3 s4 s5).2.1 (fun v1 c1 o1 h1 => ?_)
  dsimp only [Cpu.set, Cpu.get] at h1 ⊢
  refine wp_mov rfl ?_
  dsimp only [Cpu.set, Cpu.get]
  refine wp_sbb (stkRead_frame [z] P5 P4 P3 P2 P1 P0 N s0 s1 s2 s3 s4 s5).2.2.1 (fun v2 c2 o2 h2 => ?_)
  dsimp only [Cpu.set, Cpu.get] at h2 ⊢
  refine wp_mov rfl ?_
  dsimp only [Cpu.set, Cpu.get]
  refine wp_sbb (stkRead_frame [z] P5 P4 P3 P2 P1 P0 N s0 s1 s2 s3 s4 s5).2.2.2.1 (fun v3 c3 o3 h3 => ?_)
  dsimp only [Cpu.set, Cpu.get] at h3 ⊢
  refine wp_mov rfl ?_
  dsimp only [Cpu.set, Cpu.get]
  refine wp_sbb (stkRead_frame [z] P5 P4 P3 P2 P1 P0 N s0 s1 s2 s3 s4 s5).2.2.2.2.1 (fun v4 c4 o4 h4 => ?_)
  dsimp only [Cpu.set, Cpu.get] at h4 ⊢
  refine wp_mov rfl ?_
  dsimp only [Cpu.set, Cpu.get]
  refine wp_sbb (stkRead_frame [z] P5 P4 P3 P2 P1 P0 N s0 s1 s2 s3 s4 s5).2.2.2.2.2.1 (fun v5 c5 o5 h5 => ?_)
  dsimp only [Cpu.set, Cpu.get] at h5 ⊢
  refine wp_mov rfl ?_
  dsimp only [Cpu.set, Cpu.get]
  refine wp_sbb (stkRead_frame [z] P5 P4 P3 P2 P1 P0 N s0 s1 s2 s3 s4 s5).2.2.2.2.2.2 (fun v6 c6 o6 h6 => ?_)
  dsimp only [Cpu.set, Cpu.get] at h6 ⊢
  have key : v1.toNat + 2 ^ 64 * v2.toNat + 2 ^ 128 * v3.toNat + 2 ^ 192 * v4.toNat + 2 ^ 256 * v5.toNat + 2 ^ 320 * v6.toNat + (P0.toNat + 2 ^ 64 * P1.toNat + 2 ^ 128 * P2.toNat + 2 ^ 192 * P3.toNat + 2 ^ 256 * P4.toNat + 2 ^ 320 * P5.toNat) = r13.toNat + 2 ^ 64 * r14.toNat + 2 ^ 128 * r15.toNat + 2 ^ 192 * r8.toNat + 2 ^ 256 * rdi.toNat + 2 ^ 320 * rcx.toNat + 2 ^ 384 * c6.toNat := by
    linear_combination h1 + 2 ^ 64 * h2 + 2 ^ 128 * h3 + 2 ^ 192 * h4 + 2 ^ 256 * h5 + 2 ^ 320 * h6
  exact H v1 v2 v3 v4 v5 v6 c6 o6 key

theorem multiply_out_wp {is : List Instr} {Q : Cpu → Prop}
    {rax rbx rcx rdx rsi rdi r8 r9 r10 r11 r12 r13 r14 r15 z P5 P4 P3 P2 P1 P0 N s0 s1 s2 s3 s4 s5 : UInt64} {cf of : Bool} {m : UInt64 → UInt64}
    (H : wp is Q ⟨N, s0, (bif cf then rcx else r9), rdx, z, (bif cf then rdi else rbx), s5, (bif cf then r8 else rax), r9, r10, r11, s1, s2, s3, s4, cf, of, [], (memSet (memSet (memSet (memSet (memSet (memSet m (z + 0) ((bif cf then r13 else r10))) (z + 8) ((bif cf then r14 else r11))) (z + 0x10) ((bif cf then r15 else r12))) (z + 0x18) ((bif cf then r8 else rax))) (z + 0x20) ((bif cf then rdi else rbx))) (z + 0x28) ((bif cf then rcx else r9)))⟩) :
    wp (Asm.multiply_out ++ is) Q ⟨rax, rbx, rcx, rdx, rsi, rdi, 0xffffffffffffffc8, r8, r9, r10, r11, r12, r13, r14, r15, cf, of, [z, P5, P4, P3, P2, P1, P0, N, s0, s1, s2, s3, s4, s5], m⟩ := by
  simp only [Asm.multiply_out, List.cons_append, List.nil_append]
  refine wp_pop rfl ?_
  dsimp only [Cpu.set]
  refine wp_cmovae ?_
  dsimp only [Cpu.set, Cpu.get]
  refine wp_store ?_
  dsimp only [Cpu.get]
  refine wp_cmovae ?_
  dsimp only [Cpu.set, Cpu.get]
  refine wp_store ?_
  dsimp only [Cpu.get]
  refine wp_cmovae ?_
  dsimp only [Cpu.set, Cpu.get]
  refine wp_store ?_
  dsimp only [Cpu.get]
  refine wp_cmovae ?_
  dsimp only [Cpu.set, Cpu.get]
  refine wp_store ?_
  dsimp only [Cpu.get]
  refine wp_cmovae ?_
  dsimp only [Cpu.set, Cpu.get]
  refine wp_store ?_
  dsimp only [Cpu.get]
  refine wp_cmovae ?_
  dsimp only [Cpu.set, Cpu.get]
  refine wp_store ?_
  dsimp only [Cpu.get]
  refine wp_pop rfl ?_
  dsimp only [Cpu.set]
  refine wp_pop rfl ?_
  dsimp only [Cpu.set]
  refine wp_pop rfl ?_
  dsimp only [Cpu.set]
  refine wp_pop rfl ?_
  dsimp only [Cpu.set]
  refine wp_pop rfl ?_
  dsimp only [Cpu.set]
  refine wp_pop rfl ?_
  dsimp only [Cpu.set]
  refine wp_pop rfl ?_
  dsimp only [Cpu.set]
  refine wp_pop rfl ?_
  dsimp only [Cpu.set]
  refine wp_pop rfl ?_
  dsimp only [Cpu.set]
  refine wp_pop rfl ?_
  dsimp only [Cpu.set]
  refine wp_pop rfl ?_
  dsimp only [Cpu.set]
  refine wp_pop rfl ?_
  dsimp only [Cpu.set]
  refine wp_pop rfl ?_
  dsimp only [Cpu.set]
  refine wp_ret rfl ?_
  exact H  

/-- `multiply` computes the Montgomery product of the words the two pointers point to before the call,
stores it through the destination pointer, and restores the callee-saved registers. -/
theorem multiply_wp : Computes Asm.multiply (fun x y => redc (x * y)) := by
  intro s hs
  obtain ⟨rax, rbx, rcx, rdx, rsi, rdi, rbp, r8, r9, r10, r11, r12, r13, r14, r15, cf, of, stk, m⟩ := s
  dsimp only at hs ⊢
  subst hs
  unfold Asm.multiply
  rw [← List.append_nil Asm.multiply_out]
  refine multiply_pre_wp  ?_
  refine multiply_row0_wp  (fun l1_1 v3_1 v6_1 v9_1 v12_1 l14_1 u14_1 v15_1 v16_1 c16_1 o16_1 E1 => ?_)
  refine multiply_row1_wp  (fun v2_2 v7_2 v12_2 v17_2 v20_2 v22_2 l25_2 u25_2 v26_2 v27_2 c27_2 o27_2 E2 => ?_)
  refine multiply_row2_wp  (fun v2_3 v7_3 v12_3 v17_3 v20_3 v22_3 l25_3 u25_3 v26_3 v27_3 c27_3 o27_3 E3 => ?_)
  refine multiply_row3_wp  (fun v2_4 v7_4 v12_4 v17_4 v20_4 v22_4 l25_4 u25_4 v26_4 v27_4 c27_4 o27_4 E4 => ?_)
  refine multiply_row4_wp  (fun v2_5 v7_5 v12_5 v17_5 v20_5 v22_5 l25_5 u25_5 v26_5 v27_5 c27_5 o27_5 E5 => ?_)
  refine multiply_row5_wp  (fun v2_6 v7_6 v12_6 v17_6 v22_6 l25_6 u25_6 v26_6 v27_6 c27_6 o27_6 E6 => ?_)
  refine multiply_mont0_wp hN0 hP50 (fun l1_7 v8_7 v13_7 v18_7 v23_7 v24_7 l25_7 v27_7 v28_7 v29_7 v30_7 c30_7 o30_7 M7 B7 => ?_)
  refine multiply_mont1_wp hN0 hP50 B7 (fun l1_8 v3_8 v8_8 v13_8 v18_8 v23_8 v24_8 l25_8 u25_8 v28_8 v29_8 v30_8 c30_8 o30_8 M8 B8 => ?_)
  refine multiply_mont2_wp hN0 hP50 B8 (fun l1_9 v3_9 v8_9 v13_9 v18_9 v23_9 v24_9 l25_9 u25_9 v28_9 v29_9 v30_9 c30_9 o30_9 M9 B9 => ?_)
  refine multiply_mont3_wp hN0 hP50 B9 (fun l1_10 v3_10 v8_10 v13_10 v18_10 v23_10 v24_10 l25_10 u25_10 v28_10 v29_10 v30_10 c30_10 o30_10 M10 B10 => ?_)
  refine multiply_mont4_wp hN0 hP50 B10 (fun l1_11 v3_11 v8_11 v13_11 v18_11 v23_11 v24_11 l25_11 u25_11 v28_11 v29_11 v30_11 c30_11 o30_11 M11 B11 => ?_)
  refine multiply_mont5_wp hN0 hP50 B11 (fun l1_12 v3_12 v8_12 v13_12 v18_12 v23_12 v24_12 l25_12 u25_12 v28_12 v29_12 c29_12 o29_12 M12 => ?_)
  refine multiply_red_wp  (fun v1_13 v2_13 v3_13 v4_13 v5_13 v6_13 c6_13 o6_13 S13 => ?_)
  refine multiply_out_wp  ?_
  rw [readFp_val, readFp_val]
  have key : 2 ^ 384 * (v8_12.toNat + 2 ^ 64 * v13_12.toNat + 2 ^ 128 * v18_12.toNat + 2 ^ 192 * v23_12.toNat + 2 ^ 256 * v28_12.toNat + 2 ^ 320 * v29_12.toNat) + 2 ^ 768 * (c29_12.toNat) =
      ((m (rsi + 0)).toNat + 2 ^ 64 * (m (rsi + 8)).toNat + 2 ^ 128 * (m (rsi + 0x10)).toNat + 2 ^ 192 * (m (rsi + 0x18)).toNat + 2 ^ 256 * (m (rsi + 0x20)).toNat + 2 ^ 320 * (m (rsi + 0x28)).toNat) * ((m (rdx + 0)).toNat + 2 ^ 64 * (m (rdx + 8)).toNat + 2 ^ 128 * (m (rdx + 0x10)).toNat + 2 ^ 192 * (m (rdx + 0x18)).toNat + 2 ^ 256 * (m (rdx + 0x20)).toNat + 2 ^ 320 * (m (rdx + 0x28)).toNat) + (l1_7.toNat + 2 ^ 64 * l1_8.toNat + 2 ^ 128 * l1_9.toNat + 2 ^ 192 * l1_10.toNat + 2 ^ 256 * l1_11.toNat + 2 ^ 320 * l1_12.toNat) * ((0xb9feffffffffaaab : UInt64).toNat + 2 ^ 64 * (0x1eabfffeb153ffff : UInt64).toNat + 2 ^ 128 * (0x6730d2a0f6b0f624 : UInt64).toNat + 2 ^ 192 * (0x64774b84f38512bf : UInt64).toNat + 2 ^ 256 * (0x4b1ba7b6434bacd7 : UInt64).toNat + 2 ^ 320 * (0x1a0111ea397fe69a : UInt64).toNat) := by
    linear_combination E1 + 2 ^ 64 * E2 + 2 ^ 128 * E3 + 2 ^ 192 * E4 + 2 ^ 256 * E5 + 2 ^ 320 * E6 + M7 + 2 ^ 64 * M8 + 2 ^ 128 * M9 + 2 ^ 192 * M10 + 2 ^ 256 * M11 + 2 ^ 320 * M12
  have hend := mont_end (P := _) modulus_sum key (u6_lt (l1_7) (l1_8) (l1_9) (l1_10) (l1_11) (l1_12)) (u6_lt (v8_12) (v13_12) (v18_12) (v23_12) (v28_12) (v29_12)) (u6_lt (v1_13) (v2_13) (v3_13) (v4_13) (v5_13) (v6_13)) S13 (Bool.toNat_le _)
  refine wp_nil ⟨⟨bif c6_13 then v8_12 else v1_13, bif c6_13 then v13_12 else v2_13, bif c6_13 then v18_12 else v3_13, bif c6_13 then v23_12 else v4_13, bif c6_13 then v28_12 else v5_13, bif c6_13 then v29_12 else v6_13⟩, ?_, rfl, rfl, rfl, rfl, rfl, rfl, rfl, rfl⟩
  rw [Fp.val_flat]
  cases c6_13
  · simpa using hend
  · simpa using hend

end Bls.X86
