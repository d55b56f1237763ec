import Verif.Proof.X86Mont

/-! Symbolic execution of the blocks of `mul_ex` (`src/arithmetic.s`). Generated by
`tools/gen_asm_proof.py`; every step is checked by Lean. -/

namespace Bls.X86

set_option exponentiation.threshold 1000
set_option linter.unusedVariables false
set_option linter.unusedSimpArgs false

theorem mul_ex_pre_wp {is : List Instr} {Q : Cpu → Prop}
    {rax rbx rcx rdx rsi rdi rbp r8 r9 r10 r11 r12 r13 r14 r15 : UInt64} {cf of : Bool} {m : UInt64 → UInt64}
    (H : wp is Q ⟨0, rbx, rcx, rdx, rsi, rdx, 0xffffffffffffffc8, r8, r9, r10, r11, r12, r13, r14, r15, false, false, [rdi, 0x1a0111ea397fe69a, 0x4b1ba7b6434bacd7, 0x64774b84f38512bf, 0x6730d2a0f6b0f624, 0x1eabfffeb153ffff, 0xb9feffffffffaaab, 0x89f3fffcfffcfffd, rbx, r12, r13, r14, r15, rbp], m⟩) :
    wp (Asm.mul_ex_pre ++ is) Q ⟨rax, rbx, rcx, rdx, rsi, rdi, rbp, r8, r9, r10, r11, r12, r13, r14, r15, cf, of, [], m⟩ := by
  simp only [Asm.mul_ex_pre, List.cons_append, List.nil_append]
  refine wp_push ?_
  dsimp only [Cpu.get]
  refine wp_push ?_
  dsimp only [Cpu.get]
  refine wp_push ?_
  dsimp only [Cpu.get]
  refine wp_push ?_
  dsimp only [Cpu.get]
  refine wp_push ?_
  dsimp only [Cpu.get]
  refine wp_push ?_
  dsimp only [Cpu.get]
  refine wp_mov rfl ?_
  dsimp only [Cpu.set, Cpu.get]
  refine wp_push ?_
  dsimp only [Cpu.get]
  refine wp_movRsp (a := 0xffffffffffffffc8) rfl ?_
  dsimp only [Cpu.set]
  refine wp_mov rfl ?_
  dsimp only [Cpu.set, Cpu.get]
  refine wp_push ?_
  dsimp only [Cpu.get]
  refine wp_mov rfl ?_
  dsimp only [Cpu.set, Cpu.get]
  refine wp_push ?_
  dsimp only [Cpu.get]
  refine wp_mov rfl ?_
  dsimp only [Cpu.set, Cpu.get]
  refine wp_push ?_
  dsimp only [Cpu.get]
  refine wp_mov rfl ?_
  dsimp only [Cpu.set, Cpu.get]
  refine wp_push ?_
  dsimp only [Cpu.get]
  refine wp_mov rfl ?_
  dsimp only [Cpu.set, Cpu.get]
  refine wp_push ?_
  dsimp only [Cpu.get]
  refine wp_mov rfl ?_
  dsimp only [Cpu.set, Cpu.get]
  refine wp_push ?_
  dsimp only [Cpu.get]
  refine wp_push ?_
  dsimp only [Cpu.get]
  refine wp_mov rfl ?_
  dsimp only [Cpu.set, Cpu.get]
  refine wp_xor_self ?_
  dsimp only [Cpu.set]
  exact H  

theorem mul_ex_row0_wp {is : List Instr} {Q : Cpu → Prop}
    {rbx rcx rdx rsi rdi r8 r9 r10 r11 r12 r13 r14 r15 z P5 P4 P3 P2 P1 P0 N s0 s1 s2 s3 s4 s5 : UInt64} {m : UInt64 → UInt64}
    (H : ∀ (l1 : UInt64) (v3 : UInt64) (v5 : UInt64) (v7 : UInt64) (v9 : UInt64) (l10 : UInt64) (v11 : UInt64) (v12 : UInt64) (c12 : Bool) (o12 : Bool), (l1.toNat + 2 ^ 64 * v3.toNat + 2 ^ 128 * v5.toNat + 2 ^ 192 * v7.toNat + 2 ^ 256 * v9.toNat + 2 ^ 320 * v11.toNat + 2 ^ 384 * v12.toNat = 0 + (m (rsi + 0)).toNat * ((m (rdi + 0)).toNat + 2 ^ 64 * (m (rdi + 8)).toNat + 2 ^ 128 * (m (rdi + 0x10)).toNat + 2 ^ 192 * (m (rdi + 0x18)).toNat + 2 ^ 256 * (m (rdi + 0x20)).toNat + 2 ^ 320 * (m (rdi + 0x28)).toNat)) → wp is Q ⟨l10, rbx, v3, m (rsi + 0), rsi, rdi, 0xffffffffffffffc8, v5, v7, v9, v11, v12, r13, r14, r15, c12, o12, [l1, z, P5, P4, P3, P2, P1, P0, N, s0, s1, s2, s3, s4, s5], m⟩) :
    wp (Asm.mul_ex_row0 ++ is) Q ⟨0, rbx, rcx, rdx, rsi, rdi, 0xffffffffffffffc8, r8, r9, r10, r11, r12, r13, r14, r15, false, false, [z, P5, P4, P3, P2, P1, P0, N, s0, s1, s2, s3, s4, s5], m⟩ := by
  simp only [Asm.mul_ex_row0, List.cons_append, List.nil_append]
  refine wp_mov rfl ?_
  dsimp only [Cpu.set, Cpu.get]
  refine wp_mulx rfl (fun l1 u1 h1 => ?_)
  dsimp only [Cpu.set, Cpu.get] at h1 ⊢
  have b1 := mul_hi h1 (u64_lt _) (u64_lt _)
  refine wp_push ?_
  dsimp only [Cpu.get]
  refine wp_mulx rfl (fun l2 u2 h2 => ?_)
  dsimp only [Cpu.set, Cpu.get] at h2 ⊢
  have b2 := mul_hi h2 (u64_lt _) (u64_lt _)
  refine wp_adcx (fun v3 c3 h3 => ?_)
  dsimp only [Cpu.set, Cpu.get] at h3 ⊢
  simp only [Bool.toNat_false, add_zero, zero_add] at h3
  refine wp_mulx rfl (fun l4 u4 h4 => ?_)
  dsimp only [Cpu.set, Cpu.get] at h4 ⊢
  have b4 := mul_hi h4 (u64_lt _) (u64_lt _)
  refine wp_adcx (fun v5 c5 h5 => ?_)
  dsimp only [Cpu.set, Cpu.get] at h5 ⊢
  refine wp_mulx rfl (fun l6 u6 h6 => ?_)
  dsimp only [Cpu.set, Cpu.get] at h6 ⊢
  have b6 := mul_hi h6 (u64_lt _) (u64_lt _)
  refine wp_adcx (fun v7 c7 h7 => ?_)
  dsimp only [Cpu.set, Cpu.get] at h7 ⊢
  refine wp_mulx rfl (fun l8 u8 h8 => ?_)
  dsimp only [Cpu.set, Cpu.get] at h8 ⊢
  have b8 := mul_hi h8 (u64_lt _) (u64_lt _)
  refine wp_adcx (fun v9 c9 h9 => ?_)
  dsimp only [Cpu.set, Cpu.get] at h9 ⊢
  refine wp_mulx rfl (fun l10 u10 h10 => ?_)
  dsimp only [Cpu.set, Cpu.get] at h10 ⊢
  have b10 := mul_hi h10 (u64_lt _) (u64_lt _)
  refine wp_adcx (fun v11 c11 h11 => ?_)
  dsimp only [Cpu.set, Cpu.get] at h11 ⊢
  refine wp_adc rfl (fun v12 c12 o12 h12 => ?_)
  dsimp only [Cpu.set, Cpu.get] at h12 ⊢
  obtain ⟨b12, z12⟩ := adc_small h12 b10 (le_of_eq UInt64.toNat_zero) (Bool.toNat_le _) (by norm_num)
  rw [z12, Nat.mul_zero, Nat.add_zero] at h12
  simp only [UInt64.toNat_zero, add_zero, zero_add] at h12
  have key : l1.toNat + 2 ^ 64 * v3.toNat + 2 ^ 128 * v5.toNat + 2 ^ 192 * v7.toNat + 2 ^ 256 * v9.toNat + 2 ^ 320 * v11.toNat + 2 ^ 384 * v12.toNat = 0 + (m (rsi + 0)).toNat * ((m (rdi + 0)).toNat + 2 ^ 64 * (m (rdi + 8)).toNat + 2 ^ 128 * (m (rdi + 0x10)).toNat + 2 ^ 192 * (m (rdi + 0x18)).toNat + 2 ^ 256 * (m (rdi + 0x20)).toNat + 2 ^ 320 * (m (rdi + 0x28)).toNat) := by
    linear_combination 2 ^ 384 * h12 + 2 ^ 320 * h11 + 2 ^ 320 * h10 + 2 ^ 256 * h9 + 2 ^ 256 * h8 + 2 ^ 192 * h7 + 2 ^ 192 * h6 + 2 ^ 128 * h5 + 2 ^ 128 * h4 + 2 ^ 64 * h3 + 2 ^ 64 * h2 + h1
  exact H l1 v3 v5 v7 v9 l10 v11 v12 c12 o12 key

theorem mul_ex_row1_wp {is : List Instr} {Q : Cpu → Prop}
    {rax rbx rcx rdx rsi rdi r8 r9 r10 r11 r12 r13 r14 r15 t0 z P5 P4 P3 P2 P1 P0 N s0 s1 s2 s3 s4 s5 : UInt64} {cf of : Bool} {m : UInt64 → UInt64}
    (H : ∀ (v2 : UInt64) (v5 : UInt64) (v8 : UInt64) (v11 : UInt64) (v14 : UInt64) (l16 : UInt64) (u16 : UInt64) (v17 : UInt64) (c18 : Bool) (v19 : UInt64) (c19 : Bool), (v2.toNat + 2 ^ 64 * v5.toNat + 2 ^ 128 * v8.toNat + 2 ^ 192 * v11.toNat + 2 ^ 256 * v14.toNat + 2 ^ 320 * v17.toNat + 2 ^ 384 * v19.toNat = rcx.toNat + 2 ^ 64 * r8.toNat + 2 ^ 128 * r9.toNat + 2 ^ 192 * r10.toNat + 2 ^ 256 * r11.toNat + 2 ^ 320 * r12.toNat + (m (rsi + 8)).toNat * ((m (rdi + 0)).toNat + 2 ^ 64 * (m (rdi + 8)).toNat + 2 ^ 128 * (m (rdi + 0x10)).toNat + 2 ^ 192 * (m (rdi + 0x18)).toNat + 2 ^ 256 * (m (rdi + 0x20)).toNat + 2 ^ 320 * (m (rdi + 0x28)).toNat)) → wp is Q ⟨l16, u16, v2, m (rsi + 8), rsi, rdi, 0xffffffffffffffc8, v5, v8, v11, v14, v17, v19, r14, r15, c19, c18, [v2, t0, z, P5, P4, P3, P2, P1, P0, N, s0, s1, s2, s3, s4, s5], m⟩) :
    wp (Asm.mul_ex_row1 ++ is) Q ⟨rax, rbx, rcx, rdx, rsi, rdi, 0xffffffffffffffc8, r8, r9, r10, r11, r12, r13, r14, r15, cf, of, [t0, z, P5, P4, P3, P2, P1, P0, N, s0, s1, s2, s3, s4, s5], m⟩ := by
  simp only [Asm.mul_ex_row1, List.cons_append, List.nil_append]
  refine wp_mov rfl ?_
  dsimp only [Cpu.set, Cpu.get]
  refine wp_xor_self ?_
  dsimp only [Cpu.set]
  refine wp_mulx rfl (fun l1 u1 h1 => ?_)
  dsimp only [Cpu.set, Cpu.get] at h1 ⊢
  have b1 := mul_hi h1 (u64_lt _) (u64_lt _)
  refine wp_adox (fun v2 c2 h2 => ?_)
  dsimp only [Cpu.set, Cpu.get] at h2 ⊢
  simp only [Bool.toNat_false, add_zero, zero_add] at h2
  refine wp_adcx (fun v3 c3 h3 => ?_)
  dsimp only [Cpu.set, Cpu.get] at h3 ⊢
  simp only [Bool.toNat_false, add_zero, zero_add] at h3
  refine wp_push ?_
  dsimp only [Cpu.get]
  refine wp_mulx rfl (fun l4 u4 h4 => ?_)
  dsimp only [Cpu.set, Cpu.get] at h4 ⊢
  have b4 := mul_hi h4 (u64_lt _) (u64_lt _)
  refine wp_adox (fun v5 c5 h5 => ?_)
  dsimp only [Cpu.set, Cpu.get] at h5 ⊢
  refine wp_adcx (fun v6 c6 h6 => ?_)
  dsimp only [Cpu.set, Cpu.get] at h6 ⊢
  refine wp_mulx rfl (fun l7 u7 h7 => ?_)
  dsimp only [Cpu.set, Cpu.get] at h7 ⊢
  have b7 := mul_hi h7 (u64_lt _) (u64_lt _)
  refine wp_adox (fun v8 c8 h8 => ?_)
  dsimp only [Cpu.set, Cpu.get] at h8 ⊢
  refine wp_adcx (fun v9 c9 h9 => ?_)
  dsimp only [Cpu.set, Cpu.get] at h9 ⊢
  refine wp_mulx rfl (fun l10 u10 h10 => ?_)
  dsimp only [Cpu.set, Cpu.get] at h10 ⊢
  have b10 := mul_hi h10 (u64_lt _) (u64_lt _)
  refine wp_adox (fun v11 c11 h11 => ?_)
  dsimp only [Cpu.set, Cpu.get] at h11 ⊢
  refine wp_adcx (fun v12 c12 h12 => ?_)
  dsimp only [Cpu.set, Cpu.get] at h12 ⊢
  refine wp_mulx rfl (fun l13 u13 h13 => ?_)
  dsimp only [Cpu.set, Cpu.get] at h13 ⊢
  have b13 := mul_hi h13 (u64_lt _) (u64_lt _)
  refine wp_adox (fun v14 c14 h14 => ?_)
  dsimp only [Cpu.set, Cpu.get] at h14 ⊢
  refine wp_adcx (fun v15 c15 h15 => ?_)
  dsimp only [Cpu.set, Cpu.get] at h15 ⊢
  refine wp_mulx rfl (fun l16 u16 h16 => ?_)
  dsimp only [Cpu.set, Cpu.get] at h16 ⊢
  have b16 := mul_hi h16 (u64_lt _) (u64_lt _)
  refine wp_adox (fun v17 c17 h17 => ?_)
  dsimp only [Cpu.set, Cpu.get] at h17 ⊢
  refine wp_adox (fun v18 c18 h18 => ?_)
  dsimp only [Cpu.set, Cpu.get] at h18 ⊢
  obtain ⟨b18, z18⟩ := adc_small h18 (le_of_eq UInt64.toNat_zero) (le_of_eq UInt64.toNat_zero) (Bool.toNat_le _) (by norm_num)
  rw [z18, Nat.mul_zero, Nat.add_zero] at h18
  simp only [UInt64.toNat_zero, add_zero, zero_add] at h18
  refine wp_adcx (fun v19 c19 h19 => ?_)
  dsimp only [Cpu.set, Cpu.get] at h19 ⊢
  have key : v2.toNat + 2 ^ 64 * v5.toNat + 2 ^ 128 * v8.toNat + 2 ^ 192 * v11.toNat + 2 ^ 256 * v14.toNat + 2 ^ 320 * v17.toNat + 2 ^ 384 * v19.toNat + 2 ^ 448 * c19.toNat = rcx.toNat + 2 ^ 64 * r8.toNat + 2 ^ 128 * r9.toNat + 2 ^ 192 * r10.toNat + 2 ^ 256 * r11.toNat + 2 ^ 320 * r12.toNat + (m (rsi + 8)).toNat * ((m (rdi + 0)).toNat + 2 ^ 64 * (m (rdi + 8)).toNat + 2 ^ 128 * (m (rdi + 0x10)).toNat + 2 ^ 192 * (m (rdi + 0x18)).toNat + 2 ^ 256 * (m (rdi + 0x20)).toNat + 2 ^ 320 * (m (rdi + 0x28)).toNat) := by
    linear_combination 2 ^ 384 * h19 + 2 ^ 384 * h18 + 2 ^ 320 * h17 + 2 ^ 320 * h16 + 2 ^ 320 * h15 + 2 ^ 256 * h14 + 2 ^ 256 * h13 + 2 ^ 256 * h12 + 2 ^ 192 * h11 + 2 ^ 192 * h10 + 2 ^ 192 * h9 + 2 ^ 128 * h8 + 2 ^ 128 * h7 + 2 ^ 128 * h6 + 2 ^ 64 * h5 + 2 ^ 64 * h4 + 2 ^ 64 * h3 + h2 + h1
  rw [row_top key (u6_lt (rcx) (r8) (r9) (r10) (r11) (r12)) (u64_lt _) (u6_lt (m (rdi + 0)) (m (rdi + 8)) (m (rdi + 0x10)) (m (rdi + 0x18)) (m (rdi + 0x20)) (m (rdi + 0x28))), Nat.mul_zero, Nat.add_zero] at key
  exact H v2 v5 v8 v11 v14 l16 u16 v17 c18 v19 c19 key

theorem mul_ex_row2_wp {is : List Instr} {Q : Cpu → Prop}
    {rax rbx rcx rdx rsi rdi r8 r9 r10 r11 r12 r13 r14 r15 t1 t0 z P5 P4 P3 P2 P1 P0 N s0 s1 s2 s3 s4 s5 : UInt64} {cf of : Bool} {m : UInt64 → UInt64}
    (H : ∀ (v2 : UInt64) (v5 : UInt64) (v8 : UInt64) (v11 : UInt64) (v14 : UInt64) (l16 : UInt64) (u16 : UInt64) (v17 : UInt64) (c18 : Bool) (v19 : UInt64) (c19 : Bool), (v2.toNat + 2 ^ 64 * v5.toNat + 2 ^ 128 * v8.toNat + 2 ^ 192 * v11.toNat + 2 ^ 256 * v14.toNat + 2 ^ 320 * v17.toNat + 2 ^ 384 * v19.toNat = r8.toNat + 2 ^ 64 * r9.toNat + 2 ^ 128 * r10.toNat + 2 ^ 192 * r11.toNat + 2 ^ 256 * r12.toNat + 2 ^ 320 * r13.toNat + (m (rsi + 0x10)).toNat * ((m (rdi + 0)).toNat + 2 ^ 64 * (m (rdi + 8)).toNat + 2 ^ 128 * (m (rdi + 0x10)).toNat + 2 ^ 192 * (m (rdi + 0x18)).toNat + 2 ^ 256 * (m (rdi + 0x20)).toNat + 2 ^ 320 * (m (rdi + 0x28)).toNat)) → wp is Q ⟨l16, u16, rcx, m (rsi + 0x10), rsi, rdi, 0xffffffffffffffc8, v2, v5, v8, v11, v14, v17, v19, r15, c19, c18, [t1, t0, z, P5, P4, P3, P2, P1, P0, N, s0, s1, s2, s3, s4, s5], m⟩) :
    wp (Asm.mul_ex_row2 ++ is) Q ⟨rax, rbx, rcx, rdx, rsi, rdi, 0xffffffffffffffc8, r8, r9, r10, r11, r12, r13, r14, r15, cf, of, [t1, t0, z, P5, P4, P3, P2, P1, P0, N, s0, s1, s2, s3, s4, s5], m⟩ := by
  simp only [Asm.mul_ex_row2, List.cons_append, List.nil_append]
  refine wp_mov rfl ?_
  dsimp only [Cpu.set, Cpu.get]
  refine wp_xor_self ?_
  dsimp only [Cpu.set]
  refine wp_mulx rfl (fun l1 u1 h1 => ?_)
  dsimp only [Cpu.set, Cpu.get] at h1 ⊢
  have b1 := mul_hi h1 (u64_lt _) (u64_lt _)
  refine wp_adox (fun v2 c2 h2 => ?_)
  dsimp only [Cpu.set, Cpu.get] at h2 ⊢
  simp only [Bool.toNat_false, add_zero, zero_add] at h2
  refine wp_adcx (fun v3 c3 h3 => ?_)
  dsimp only [Cpu.set, Cpu.get] at h3 ⊢
  simp only [Bool.toNat_false, add_zero, zero_add] at h3
  refine wp_mulx rfl (fun l4 u4 h4 => ?_)
  dsimp only [Cpu.set, Cpu.get] at h4 ⊢
  have b4 := mul_hi h4 (u64_lt _) (u64_lt _)
  refine wp_adox (fun v5 c5 h5 => ?_)
  dsimp only [Cpu.set, Cpu.get] at h5 ⊢
  refine wp_adcx (fun v6 c6 h6 => ?_)
  dsimp only [Cpu.set, Cpu.get] at h6 ⊢
  refine wp_mulx rfl (fun l7 u7 h7 => ?_)
  dsimp only [Cpu.set, Cpu.get] at h7 ⊢
  have b7 := mul_hi h7 (u64_lt _) (u64_lt _)
  refine wp_adox (fun v8 c8 h8 => ?_)
  dsimp only [Cpu.set, Cpu.get] at h8 ⊢
  refine wp_adcx (fun v9 c9 h9 => ?_)
  dsimp only [Cpu.set, Cpu.get] at h9 ⊢
  refine wp_mulx rfl (fun l10 u10 h10 => ?_)
  dsimp only [Cpu.set, Cpu.get] at h10 ⊢
  have b10 := mul_hi h10 (u64_lt _) (u64_lt _)
  refine wp_adox (fun v11 c11 h11 => ?_)
  dsimp only [Cpu.set, Cpu.get] at h11 ⊢
  refine wp_adcx (fun v12 c12 h12 => ?_)
  dsimp only [Cpu.set, Cpu.get] at h12 ⊢
  refine wp_mulx rfl (fun l13 u13 h13 => ?_)
  dsimp only [Cpu.set, Cpu.get] at h13 ⊢
  have b13 := mul_hi h13 (u64_lt _) (u64_lt _)
  refine wp_adox (fun v14 c14 h14 => ?_)
  dsimp only [Cpu.set, Cpu.get] at h14 ⊢
  refine wp_adcx (fun v15 c15 h15 => ?_)
  dsimp only [Cpu.set, Cpu.get] at h15 ⊢
  refine wp_mulx rfl (fun l16 u16 h16 => ?_)
  dsimp only [Cpu.set, Cpu.get] at h16 ⊢
  have b16 := mul_hi h16 (u64_lt _) (u64_lt _)
  refine wp_adox (fun v17 c17 h17 => ?_)
  dsimp only [Cpu.set, Cpu.get] at h17 ⊢
  refine wp_adox (fun v18 c18 h18 => ?_)
  dsimp only [Cpu.set, Cpu.get] at h18 ⊢
  obtain ⟨b18, z18⟩ := adc_small h18 (le_of_eq UInt64.toNat_zero) (le_of_eq UInt64.toNat_zero) (Bool.toNat_le _) (by norm_num)
  rw [z18, Nat.mul_zero, Nat.add_zero] at h18
  simp only [UInt64.toNat_zero, add_zero, zero_add] at h18
  refine wp_adcx (fun v19 c19 h19 => ?_)
  dsimp only [Cpu.set, Cpu.get] at h19 ⊢
  have key : v2.toNat + 2 ^ 64 * v5.toNat + 2 ^ 128 * v8.toNat + 2 ^ 192 * v11.toNat + 2 ^ 256 * v14.toNat + 2 ^ 320 * v17.toNat + 2 ^ 384 * v19.toNat + 2 ^ 448 * c19.toNat = r8.toNat + 2 ^ 64 * r9.toNat + 2 ^ 128 * r10.toNat + 2 ^ 192 * r11.toNat + 2 ^ 256 * r12.toNat + 2 ^ 320 * r13.toNat + (m (rsi + 0x10)).toNat * ((m (rdi + 0)).toNat + 2 ^ 64 * (m (rdi + 8)).toNat + 2 ^ 128 * (m (rdi + 0x10)).toNat + 2 ^ 192 * (m (rdi + 0x18)).toNat + 2 ^ 256 * (m (rdi + 0x20)).toNat + 2 ^ 320 * (m (rdi + 0x28)).toNat) := by
    linear_combination 2 ^ 384 * h19 + 2 ^ 384 * h18 + 2 ^ 320 * h17 + 2 ^ 320 * h16 + 2 ^ 320 * h15 + 2 ^ 256 * h14 + 2 ^ 256 * h13 + 2 ^ 256 * h12 + 2 ^ 192 * h11 + 2 ^ 192 * h10 + 2 ^ 192 * h9 + 2 ^ 128 * h8 + 2 ^ 128 * h7 + 2 ^ 128 * h6 + 2 ^ 64 * h5 + 2 ^ 64 * h4 + 2 ^ 64 * h3 + h2 + h1
  rw [row_top key (u6_lt (r8) (r9) (r10) (r11) (r12) (r13)) (u64_lt _) (u6_lt (m (rdi + 0)) (m (rdi + 8)) (m (rdi + 0x10)) (m (rdi + 0x18)) (m (rdi + 0x20)) (m (rdi + 0x28))), Nat.mul_zero, Nat.add_zero] at key
  exact H v2 v5 v8 v11 v14 l16 u16 v17 c18 v19 c19 key

theorem mul_ex_row3_wp {is : List Instr} {Q : Cpu → Prop}
    {rax rbx rcx rdx rsi rdi r8 r9 r10 r11 r12 r13 r14 r15 t1 t0 z P5 P4 P3 P2 P1 P0 N s0 s1 s2 s3 s4 s5 : UInt64} {cf of : Bool} {m : UInt64 → UInt64}
    (H : ∀ (v2 : UInt64) (v5 : UInt64) (v8 : UInt64) (v11 : UInt64) (v14 : UInt64) (l16 : UInt64) (u16 : UInt64) (v17 : UInt64) (c18 : Bool) (v19 : UInt64) (c19 : Bool), (v2.toNat + 2 ^ 64 * v5.toNat + 2 ^ 128 * v8.toNat + 2 ^ 192 * v11.toNat + 2 ^ 256 * v14.toNat + 2 ^ 320 * v17.toNat + 2 ^ 384 * v19.toNat = r9.toNat + 2 ^ 64 * r10.toNat + 2 ^ 128 * r11.toNat + 2 ^ 192 * r12.toNat + 2 ^ 256 * r13.toNat + 2 ^ 320 * r14.toNat + (m (rsi + 0x18)).toNat * ((m (rdi + 0)).toNat + 2 ^ 64 * (m (rdi + 8)).toNat + 2 ^ 128 * (m (rdi + 0x10)).toNat + 2 ^ 192 * (m (rdi + 0x18)).toNat + 2 ^ 256 * (m (rdi + 0x20)).toNat + 2 ^ 320 * (m (rdi + 0x28)).toNat)) → wp is Q ⟨l16, u16, rcx, m (rsi + 0x18), rsi, rdi, 0xffffffffffffffc8, r8, v2, v5, v8, v11, v14, v17, v19, c19, c18, [t1, t0, z, P5, P4, P3, P2, P1, P0, N, s0, s1, s2, s3, s4, s5], m⟩) :
    wp (Asm.mul_ex_row3 ++ is) Q ⟨rax, rbx, rcx, rdx, rsi, rdi, 0xffffffffffffffc8, r8, r9, r10, r11, r12, r13, r14, r15, cf, of, [t1, t0, z, P5, P4, P3, P2, P1, P0, N, s0, s1, s2, s3, s4, s5], m⟩ := by
  simp only [Asm.mul_ex_row3, List.cons_append, List.nil_append]
  refine wp_mov rfl ?_
  dsimp only [Cpu.set, Cpu.get]
  refine wp_xor_self ?_
  dsimp only [Cpu.set]
  refine wp_mulx rfl (fun l1 u1 h1 => ?_)
  dsimp only [Cpu.set, Cpu.get] at h1 ⊢
  have b1 := mul_hi h1 (u64_lt _) (u64_lt _)
  refine wp_adox (fun v2 c2 h2 => ?_)
  dsimp only [Cpu.set, Cpu.get] at h2 ⊢
  simp only [Bool.toNat_false, add_zero, zero_add] at h2
  refine wp_adcx (fun v3 c3 h3 => ?_)
  dsimp only [Cpu.set, Cpu.get] at h3 ⊢
  simp only [Bool.toNat_false, add_zero, zero_add] at h3
  refine wp_mulx rfl (fun l4 u4 h4 => ?_)
  dsimp only [Cpu.set, Cpu.get] at h4 ⊢
  have b4 := mul_hi h4 (u64_lt _) (u64_lt _)
  refine wp_adox (fun v5 c5 h5 => ?_)
  dsimp only [Cpu.set, Cpu.get] at h5 ⊢
  refine wp_adcx (fun v6 c6 h6 => ?_)
  dsimp only [Cpu.set, Cpu.get] at h6 ⊢
  refine wp_mulx rfl (fun l7 u7 h7 => ?_)
  dsimp only [Cpu.set, Cpu.get] at h7 ⊢
  have b7 := mul_hi h7 (u64_lt _) (u64_lt _)
  refine wp_adox (fun v8 c8 h8 => ?_)
  dsimp only [Cpu.set, Cpu.get] at h8 ⊢
  refine wp_adcx (fun v9 c9 h9 => ?_)
  dsimp only [Cpu.set, Cpu.get] at h9 ⊢
  refine wp_mulx rfl (fun l10 u10 h10 => ?_)
  dsimp only [Cpu.set, Cpu.get] at h10 ⊢
  have b10 := mul_hi h10 (u64_lt _) (u64_lt _)
  refine wp_adox (fun v11 c11 h11 => ?_)
  dsimp only [Cpu.set, Cpu.get] at h11 ⊢
  refine wp_adcx (fun v12 c12 h12 => ?_)
  dsimp only [Cpu.set, Cpu.get] at h12 ⊢
  refine wp_mulx rfl (fun l13 u13 h13 => ?_)
  dsimp only [Cpu.set, Cpu.get] at h13 ⊢
  have b13 := mul_hi h13 (u64_lt _) (u64_lt _)
  refine wp_adox (fun v14 c14 h14 => ?_)
  dsimp only [Cpu.set, Cpu.get] at h14 ⊢
  refine wp_adcx (fun v15 c15 h15 => ?_)
  dsimp only [Cpu.set, Cpu.get] at h15 ⊢
  refine wp_mulx rfl (fun l16 u16 h16 => ?_)
  dsimp only [Cpu.set, Cpu.get] at h16 ⊢
  have b16 := mul_hi h16 (u64_lt _) (u64_lt _)
  refine wp_adox (fun v17 c17 h17 => ?_)
  dsimp only [Cpu.set, Cpu.get] at h17 ⊢
  refine wp_adox (fun v18 c18 h18 => ?_)
  dsimp only [Cpu.set, Cpu.get] at h18 ⊢
  obtain ⟨b18, z18⟩ := adc_small h18 (le_of_eq UInt64.toNat_zero) (le_of_eq UInt64.toNat_zero) (Bool.toNat_le _) (by norm_num)
  rw [z18, Nat.mul_zero, Nat.add_zero] at h18
  simp only [UInt64.toNat_zero, add_zero, zero_add] at h18
  refine wp_adcx (fun v19 c19 h19 => ?_)
  dsimp only [Cpu.set, Cpu.get] at h19 ⊢
  have key : v2.toNat + 2 ^ 64 * v5.toNat + 2 ^ 128 * v8.toNat + 2 ^ 192 * v11.toNat + 2 ^ 256 * v14.toNat + 2 ^ 320 * v17.toNat + 2 ^ 384 * v19.toNat + 2 ^ 448 * c19.toNat = r9.toNat + 2 ^ 64 * r10.toNat + 2 ^ 128 * r11.toNat + 2 ^ 192 * r12.toNat + 2 ^ 256 * r13.toNat + 2 ^ 320 * r14.toNat + (m (rsi + 0x18)).toNat * ((m (rdi + 0)).toNat + 2 ^ 64 * (m (rdi + 8)).toNat + 2 ^ 128 * (m (rdi + 0x10)).toNat + 2 ^ 192 * (m (rdi + 0x18)).toNat + 2 ^ 256 * (m (rdi + 0x20)).toNat + 2 ^ 320 * (m (rdi + 0x28)).toNat) := by
    linear_combination 2 ^ 384 * h19 + 2 ^ 384 * h18 + 2 ^ 320 * h17 + 2 ^ 320 * h16 + 2 ^ 320 * h15 + 2 ^ 256 * h14 + 2 ^ 256 * h13 + 2 ^ 256 * h12 + 2 ^ 192 * h11 + 2 ^ 192 * h10 + 2 ^ 192 * h9 + 2 ^ 128 * h8 + 2 ^ 128 * h7 + 2 ^ 128 * h6 + 2 ^ 64 * h5 + 2 ^ 64 * h4 + 2 ^ 64 * h3 + h2 + h1
  rw [row_top key (u6_lt (r9) (r10) (r11) (r12) (r13) (r14)) (u64_lt _) (u6_lt (m (rdi + 0)) (m (rdi + 8)) (m (rdi + 0x10)) (m (rdi + 0x18)) (m (rdi + 0x20)) (m (rdi + 0x28))), Nat.mul_zero, Nat.add_zero] at key
  exact H v2 v5 v8 v11 v14 l16 u16 v17 c18 v19 c19 key

theorem mul_ex_row4_wp {is : List Instr} {Q : Cpu → Prop}
    {rax rbx rcx rdx rsi rdi r8 r9 r10 r11 r12 r13 r14 r15 t1 t0 z P5 P4 P3 P2 P1 P0 N s0 s1 s2 s3 s4 s5 : UInt64} {cf of : Bool} {m : UInt64 → UInt64}
    (H : ∀ (v2 : UInt64) (v5 : UInt64) (v8 : UInt64) (v11 : UInt64) (v14 : UInt64) (l16 : UInt64) (u16 : UInt64) (v17 : UInt64) (c18 : Bool) (v19 : UInt64) (c19 : Bool), (v2.toNat + 2 ^ 64 * v5.toNat + 2 ^ 128 * v8.toNat + 2 ^ 192 * v11.toNat + 2 ^ 256 * v14.toNat + 2 ^ 320 * v17.toNat + 2 ^ 384 * v19.toNat = r10.toNat + 2 ^ 64 * r11.toNat + 2 ^ 128 * r12.toNat + 2 ^ 192 * r13.toNat + 2 ^ 256 * r14.toNat + 2 ^ 320 * r15.toNat + (m (rsi + 0x20)).toNat * ((m (rdi + 0)).toNat + 2 ^ 64 * (m (rdi + 8)).toNat + 2 ^ 128 * (m (rdi + 0x10)).toNat + 2 ^ 192 * (m (rdi + 0x18)).toNat + 2 ^ 256 * (m (rdi + 0x20)).toNat + 2 ^ 320 * (m (rdi + 0x28)).toNat)) → wp is Q ⟨l16, u16, v19, m (rsi + 0x20), rsi, rdi, 0xffffffffffffffc8, r8, r9, v2, v5, v8, v11, v14, v17, c19, c18, [t1, t0, z, P5, P4, P3, P2, P1, P0, N, s0, s1, s2, s3, s4, s5], m⟩) :
    wp (Asm.mul_ex_row4 ++ is) Q ⟨rax, rbx, rcx, rdx, rsi, rdi, 0xffffffffffffffc8, r8, r9, r10, r11, r12, r13, r14, r15, cf, of, [t1, t0, z, P5, P4, P3, P2, P1, P0, N, s0, s1, s2, s3, s4, s5], m⟩ := by
  simp only [Asm.mul_ex_row4, List.cons_append, List.nil_append]
  refine wp_mov rfl ?_
  dsimp only [Cpu.set, Cpu.get]
  refine wp_xor_self ?_
  dsimp only [Cpu.set]
  refine wp_mulx rfl (fun l1 u1 h1 => ?_)
  dsimp only [Cpu.set, Cpu.get] at h1 ⊢
  have b1 := mul_hi h1 (u64_lt _) (u64_lt _)
  refine wp_adox (fun v2 c2 h2 => ?_)
  dsimp only [Cpu.set, Cpu.get] at h2 ⊢
  simp only [Bool.toNat_false, add_zero, zero_add] at h2
  refine wp_adcx (fun v3 c3 h3 => ?_)
  dsimp only [Cpu.set, Cpu.get] at h3 ⊢
  simp only [Bool.toNat_false, add_zero, zero_add] at h3
  refine wp_mulx rfl (fun l4 u4 h4 => ?_)
  dsimp only [Cpu.set, Cpu.get] at h4 ⊢
  have b4 := mul_hi h4 (u64_lt _) (u64_lt _)
  refine wp_adox (fun v5 c5 h5 => ?_)
  dsimp only [Cpu.set, Cpu.get] at h5 ⊢
  refine wp_adcx (fun v6 c6 h6 => ?_)
  dsimp only [Cpu.set, Cpu.get] at h6 ⊢
  refine wp_mulx rfl (fun l7 u7 h7 => ?_)
  dsimp only [Cpu.set, Cpu.get] at h7 ⊢
  have b7 := mul_hi h7 (u64_lt _) (u64_lt _)
  refine wp_adox (fun v8 c8 h8 => ?_)
  dsimp only [Cpu.set, Cpu.get] at h8 ⊢
  refine wp_adcx (fun v9 c9 h9 => ?_)
  dsimp only [Cpu.set, Cpu.get] at h9 ⊢
  refine wp_mulx rfl (fun l10 u10 h10 => ?_)
  dsimp only [Cpu.set, Cpu.get] at h10 ⊢
  have b10 := mul_hi h10 (u64_lt _) (u64_lt _)
  refine wp_adox (fun v11 c11 h11 => ?_)
  dsimp only [Cpu.set, Cpu.get] at h11 ⊢
  refine wp_adcx (fun v12 c12 h12 => ?_)
  dsimp only [Cpu.set, Cpu.get] at h12 ⊢
  refine wp_mulx rfl (fun l13 u13 h13 => ?_)
  dsimp only [Cpu.set, Cpu.get] at h13 ⊢
  have b13 := mul_hi h13 (u64_lt _) (u64_lt _)
  refine wp_adox (fun v14 c14 h14 => ?_)
  dsimp only [Cpu.set, Cpu.get] at h14 ⊢
  refine wp_adcx (fun v15 c15 h15 => ?_)
  dsimp only [Cpu.set, Cpu.get] at h15 ⊢
  refine wp_mulx rfl (fun l16 u16 h16 => ?_)
  dsimp only [Cpu.set, Cpu.get] at h16 ⊢
  have b16 := mul_hi h16 (u64_lt _) (u64_lt _)
  refine wp_adox (fun v17 c17 h17 => ?_)
  dsimp only [Cpu.set, Cpu.get] at h17 ⊢
  refine wp_adox (fun v18 c18 h18 => ?_)
  dsimp only [Cpu.set, Cpu.get] at h18 ⊢
  obtain ⟨b18, z18⟩ := adc_small h18 (le_of_eq UInt64.toNat_zero) (le_of_eq UInt64.toNat_zero) (Bool.toNat_le _) (by norm_num)
  rw [z18, Nat.mul_zero, Nat.add_zero] at h18
  simp only [UInt64.toNat_zero, add_zero, zero_add] at h18
  refine wp_adcx (fun v19 c19 h19 => ?_)
  dsimp only [Cpu.set, Cpu.get] at h19 ⊢
  have key : v2.toNat + 2 ^ 64 * v5.toNat + 2 ^ 128 * v8.toNat + 2 ^ 192 * v11.toNat + 2 ^ 256 * v14.toNat + 2 ^ 320 * v17.toNat + 2 ^ 384 * v19.toNat + 2 ^ 448 * c19.toNat = r10.toNat + 2 ^ 64 * r11.toNat + 2 ^ 128 * r12.toNat + 2 ^ 192 * r13.toNat + 2 ^ 256 * r14.toNat + 2 ^ 320 * r15.toNat + (m (rsi + 0x20)).toNat * ((m (rdi + 0)).toNat + 2 ^ 64 * (m (rdi + 8)).toNat + 2 ^ 128 * (m (rdi + 0x10)).toNat + 2 ^ 192 * (m (rdi + 0x18)).toNat + 2 ^ 256 * (m (rdi + 0x20)).toNat + 2 ^ 320 * (m (rdi + 0x28)).toNat) := by
    linear_combination 2 ^ 384 * h19 + 2 ^ 384 * h18 + 2 ^ 320 * h17 + 2 ^ 320 * h16 + 2 ^ 320 * h15 + 2 ^ 256 * h14 + 2 ^ 256 * h13 + 2 ^ 256 * h12 + 2 ^ 192 * h11 + 2 ^ 192 * h10 + 2 ^ 192 * h9 + 2 ^ 128 * h8 + 2 ^ 128 * h7 + 2 ^ 128 * h6 + 2 ^ 64 * h5 + 2 ^ 64 * h4 + 2 ^ 64 * h3 + h2 + h1
  rw [row_top key (u6_lt (r10) (r11) (r12) (r13) (r14) (r15)) (u64_lt _) (u6_lt (m (rdi + 0)) (m (rdi + 8)) (m (rdi + 0x10)) (m (rdi + 0x18)) (m (rdi + 0x20)) (m (rdi + 0x28))), Nat.mul_zero, Nat.add_zero] at key
  exact H v2 v5 v8 v11 v14 l16 u16 v17 c18 v19 c19 key

theorem mul_ex_row5_wp {is : List Instr} {Q : Cpu → Prop}
    {rax rbx rcx rdx rsi rdi r8 r9 r10 r11 r12 r13 r14 r15 t1 t0 z P5 P4 P3 P2 P1 P0 N s0 s1 s2 s3 s4 s5 : UInt64} {cf of : Bool} {m : UInt64 → UInt64}
    (H : ∀ (v2 : UInt64) (v5 : UInt64) (v8 : UInt64) (v11 : UInt64) (v14 : UInt64) (l16 : UInt64) (v17 : UInt64) (v19 : UInt64) (c19 : Bool) (o19 : Bool), (v2.toNat + 2 ^ 64 * v5.toNat + 2 ^ 128 * v8.toNat + 2 ^ 192 * v11.toNat + 2 ^ 256 * v14.toNat + 2 ^ 320 * v17.toNat + 2 ^ 384 * v19.toNat = r11.toNat + 2 ^ 64 * r12.toNat + 2 ^ 128 * r13.toNat + 2 ^ 192 * r14.toNat + 2 ^ 256 * r15.toNat + 2 ^ 320 * rcx.toNat + (m (rsi + 0x28)).toNat * ((m (rdi + 0)).toNat + 2 ^ 64 * (m (rdi + 8)).toNat + 2 ^ 128 * (m (rdi + 0x10)).toNat + 2 ^ 192 * (m (rdi + 0x18)).toNat + 2 ^ 256 * (m (rdi + 0x20)).toNat + 2 ^ 320 * (m (rdi + 0x28)).toNat)) → wp is Q ⟨l16, t0, v17, m (rsi + 0x28), v19, t1, 0xffffffffffffffc8, r8, r9, r10, v2, v5, v8, v11, v14, c19, o19, [v19, z, P5, P4, P3, P2, P1, P0, N, s0, s1, s2, s3, s4, s5], m⟩) :
    wp (Asm.mul_ex_row5 ++ is) Q ⟨rax, rbx, rcx, rdx, rsi, rdi, 0xffffffffffffffc8, r8, r9, r10, r11, r12, r13, r14, r15, cf, of, [t1, t0, z, P5, P4, P3, P2, P1, P0, N, s0, s1, s2, s3, s4, s5], m⟩ := by
  simp only [Asm.mul_ex_row5, List.cons_append, List.nil_append]
  refine wp_mov rfl ?_
  dsimp only [Cpu.set, Cpu.get]
  refine wp_xor_self ?_
  dsimp only [Cpu.set]
  refine wp_mulx rfl (fun l1 u1 h1 => ?_)
  dsimp only [Cpu.set, Cpu.get] at h1 ⊢
  have b1 := mul_hi h1 (u64_lt _) (u64_lt _)
  refine wp_adox (fun v2 c2 h2 => ?_)
  dsimp only [Cpu.set, Cpu.get] at h2 ⊢
  simp only [Bool.toNat_false, add_zero, zero_add] at h2
  refine wp_adcx (fun v3 c3 h3 => ?_)
  dsimp only [Cpu.set, Cpu.get] at h3 ⊢
  simp only [Bool.toNat_false, add_zero, zero_add] at h3
  refine wp_mulx rfl (fun l4 u4 h4 => ?_)
  dsimp only [Cpu.set, Cpu.get] at h4 ⊢
  have b4 := mul_hi h4 (u64_lt _) (u64_lt _)
  refine wp_adox (fun v5 c5 h5 => ?_)
  dsimp only [Cpu.set, Cpu.get] at h5 ⊢
  refine wp_adcx (fun v6 c6 h6 => ?_)
  dsimp only [Cpu.set, Cpu.get] at h6 ⊢
  refine wp_mulx rfl (fun l7 u7 h7 => ?_)
  dsimp only [Cpu.set, Cpu.get] at h7 ⊢
  have b7 := mul_hi h7 (u64_lt _) (u64_lt _)
  refine wp_adox (fun v8 c8 h8 => ?_)
  dsimp only [Cpu.set, Cpu.get] at h8 ⊢
  refine wp_adcx (fun v9 c9 h9 => ?_)
  dsimp only [Cpu.set, Cpu.get] at h9 ⊢
  refine wp_mulx rfl (fun l10 u10 h10 => ?_)
  dsimp only [Cpu.set, Cpu.get] at h10 ⊢
  have b10 := mul_hi h10 (u64_lt _) (u64_lt _)
  refine wp_adox (fun v11 c11 h11 => ?_)
  dsimp only [Cpu.set, Cpu.get] at h11 ⊢
  refine wp_adcx (fun v12 c12 h12 => ?_)
  dsimp only [Cpu.set, Cpu.get] at h12 ⊢
  refine wp_mulx rfl (fun l13 u13 h13 => ?_)
  dsimp only [Cpu.set, Cpu.get] at h13 ⊢
  have b13 := mul_hi h13 (u64_lt _) (u64_lt _)
  refine wp_adox (fun v14 c14 h14 => ?_)
  dsimp only [Cpu.set, Cpu.get] at h14 ⊢
  refine wp_adcx (fun v15 c15 h15 => ?_)
  dsimp only [Cpu.set, Cpu.get] at h15 ⊢
  refine wp_mulx rfl (fun l16 u16 h16 => ?_)
  dsimp only [Cpu.set, Cpu.get] at h16 ⊢
  have b16 := mul_hi h16 (u64_lt _) (u64_lt _)
  refine wp_adox (fun v17 c17 h17 => ?_)
  dsimp only [Cpu.set, Cpu.get] at h17 ⊢
  refine wp_adox (fun v18 c18 h18 => ?_)
  dsimp only [Cpu.set, Cpu.get] at h18 ⊢
  obtain ⟨b18, z18⟩ := adc_small h18 (le_of_eq UInt64.toNat_zero) b16 (Bool.toNat_le _) (by norm_num)
  rw [z18, Nat.mul_zero, Nat.add_zero] at h18
  simp only [UInt64.toNat_zero, add_zero, zero_add] at h18
  refine wp_adc rfl (fun v19 c19 o19 h19 => ?_)
  dsimp only [Cpu.set, Cpu.get] at h19 ⊢
  simp only [UInt64.toNat_zero, add_zero, zero_add] at h19
  refine wp_pop rfl ?_
  dsimp only [Cpu.set]
  refine wp_pop rfl ?_
  dsimp only [Cpu.set]
  refine wp_push ?_
  dsimp only [Cpu.get]
  have key : v2.toNat + 2 ^ 64 * v5.toNat + 2 ^ 128 * v8.toNat + 2 ^ 192 * v11.toNat + 2 ^ 256 * v14.toNat + 2 ^ 320 * v17.toNat + 2 ^ 384 * v19.toNat + 2 ^ 448 * c19.toNat = r11.toNat + 2 ^ 64 * r12.toNat + 2 ^ 128 * r13.toNat + 2 ^ 192 * r14.toNat + 2 ^ 256 * r15.toNat + 2 ^ 320 * rcx.toNat + (m (rsi + 0x28)).toNat * ((m (rdi + 0)).toNat + 2 ^ 64 * (m (rdi + 8)).toNat + 2 ^ 128 * (m (rdi + 0x10)).toNat + 2 ^ 192 * (m (rdi + 0x18)).toNat + 2 ^ 256 * (m (rdi + 0x20)).toNat + 2 ^ 320 * (m (rdi + 0x28)).toNat) := by
    linear_combination 2 ^ 384 * h19 + 2 ^ 384 * h18 + 2 ^ 320 * h17 + 2 ^ 320 * h16 + 2 ^ 320 * h15 + 2 ^ 256 * h14 + 2 ^ 256 * h13 + 2 ^ 256 * h12 + 2 ^ 192 * h11 + 2 ^ 192 * h10 + 2 ^ 192 * h9 + 2 ^ 128 * h8 + 2 ^ 128 * h7 + 2 ^ 128 * h6 + 2 ^ 64 * h5 + 2 ^ 64 * h4 + 2 ^ 64 * h3 + h2 + h1
  rw [row_top key (u6_lt (r11) (r12) (r13) (r14) (r15) (rcx)) (u64_lt _) (u6_lt (m (rdi + 0)) (m (rdi + 8)) (m (rdi + 0x10)) (m (rdi + 0x18)) (m (rdi + 0x20)) (m (rdi + 0x28))), Nat.mul_zero, Nat.add_zero] at key
  exact H v2 v5 v8 v11 v14 l16 v17 v19 c19 o19 key

theorem mul_ex_load_wp {is : List Instr} {Q : Cpu → Prop}
    {rax rbx rcx rdx rsi rdi r8 r9 r10 r11 r12 r13 r14 r15 t0 z P5 P4 P3 P2 P1 P0 N s0 s1 s2 s3 s4 s5 : UInt64} {cf of : Bool} {m : UInt64 → UInt64}
    (H : wp is Q ⟨0, rbx, rcx, rdx, rsi, rdi, 0xffffffffffffffc8, r8, r9, r10, r11, r12, r13, r14, r15, false, false, [t0, z, P5, P4, P3, P2, P1, P0, N, s0, s1, s2, s3, s4, s5], m⟩) :
    wp (Asm.mul_ex_load ++ is) Q ⟨rax, rbx, rcx, rdx, rsi, rdi, 0xffffffffffffffc8, r8, r9, r10, r11, r12, r13, r14, r15, cf, of, [t0, z, P5, P4, P3, P2, P1, P0, N, s0, s1, s2, s3, s4, s5], m⟩ := by
  simp only [Asm.mul_ex_load, List.cons_append, List.nil_append]
  refine wp_xor_self ?_
  dsimp only [Cpu.set]
  exact H  

theorem mul_ex_mont0_wp {is : List Instr} {Q : Cpu → Prop}
    {rbx rcx rdx rsi rdi r8 r9 r10 r11 r12 r13 r14 r15 t0 z P5 P4 P3 P2 P1 P0 N s0 s1 s2 s3 s4 s5 : UInt64} {m : UInt64 → UInt64}
    (hN : (N.toNat * P0.toNat + 1) % 2 ^ 64 = 0)
    (hP5 : P5.toNat ≤ 2 ^ 61)
    (H : ∀ (l1 : UInt64) (v6 : UInt64) (v9 : UInt64) (v12 : UInt64) (v15 : UInt64) (u17 : UInt64) (v18 : UInt64) (v20 : UInt64) (v22 : UInt64), (2 ^ 64 * v6.toNat + 2 ^ 128 * v9.toNat + 2 ^ 192 * v12.toNat + 2 ^ 256 * v15.toNat + 2 ^ 320 * v18.toNat + 2 ^ 384 * v20.toNat + 2 ^ 448 * v22.toNat = rbx.toNat + 2 ^ 64 * rdi.toNat + 2 ^ 128 * r8.toNat + 2 ^ 192 * r9.toNat + 2 ^ 256 * r10.toNat + 2 ^ 320 * r11.toNat + 2 ^ 384 * r12.toNat + l1.toNat * (P0.toNat + 2 ^ 64 * P1.toNat + 2 ^ 128 * P2.toNat + 2 ^ 192 * P3.toNat + 2 ^ 256 * P4.toNat + 2 ^ 320 * P5.toNat)) → (v22.toNat ≤ 2) → wp is Q ⟨0, v22, rcx, l1, u17, v6, 0xffffffffffffffc8, v9, v12, v15, v18, v20, r13, r14, r15, false, false, [t0, z, P5, P4, P3, P2, P1, P0, N, s0, s1, s2, s3, s4, s5], m⟩) :
    wp (Asm.mul_ex_mont0 ++ is) Q ⟨0, rbx, rcx, rdx, rsi, rdi, 0xffffffffffffffc8, r8, r9, r10, r11, r12, r13, r14, r15, false, false, [t0, z, P5, P4, P3, P2, P1, P0, N, s0, s1, s2, s3, s4, s5], m⟩ := by
  simp only [Asm.mul_ex_mont0, List.cons_append, List.nil_append]
  refine wp_mov rfl ?_
  dsimp only [Cpu.set, Cpu.get]
  refine wp_mulx (stkRead_frame [t0, z] P5 P4 P3 P2 P1 P0 N s0 s1 s2 s3 s4 s5).1 (fun l1 u1 h1 => ?_)
  dsimp only [Cpu.set, Cpu.get] at h1 ⊢
  have b1 := mul_hi h1 (u64_lt _) (u64_lt _)
  refine wp_mulx (stkRead_frame [t0, z] P5 P4 P3 P2 P1 P0 N s0 s1 s2 s3 s4 s5).2.1 (fun l2 u2 h2 => ?_)
  dsimp only [Cpu.set, Cpu.get] at h2 ⊢
  have b2 := mul_hi h2 (u64_lt _) (u64_lt _)
  rw [Nat.mul_comm _ P0.toNat] at h2
  refine wp_adox (fun v3 c3 h3 => ?_)
  dsimp only [Cpu.set, Cpu.get] at h3 ⊢
  simp only [Bool.toNat_false, add_zero, zero_add] at h3
  have y3 := mont_low h1 h2 h3 (u64_lt _) hN
  rw [y3, Nat.zero_add] at h3
  refine wp_adcx (fun v4 c4 h4 => ?_)
  dsimp only [Cpu.set, Cpu.get] at h4 ⊢
  simp only [Bool.toNat_false, add_zero, zero_add] at h4
  refine wp_mulx (stkRead_frame [t0, z] P5 P4 P3 P2 P1 P0 N s0 s1 s2 s3 s4 s5).2.2.1 (fun l5 u5 h5 => ?_)
  dsimp only [Cpu.set, Cpu.get] at h5 ⊢
  have b5 := mul_hi h5 (u64_lt _) (u64_lt _)
  refine wp_adox (fun v6 c6 h6 => ?_)
  dsimp only [Cpu.set, Cpu.get] at h6 ⊢
  refine wp_adcx (fun v7 c7 h7 => ?_)
  dsimp only [Cpu.set, Cpu.get] at h7 ⊢
  refine wp_mulx (stkRead_frame [t0, z] P5 P4 P3 P2 P1 P0 N s0 s1 s2 s3 s4 s5).2.2.2.1 (fun l8 u8 h8 => ?_)
  dsimp only [Cpu.set, Cpu.get] at h8 ⊢
  have b8 := mul_hi h8 (u64_lt _) (u64_lt _)
  refine wp_adox (fun v9 c9 h9 => ?_)
  dsimp only [Cpu.set, Cpu.get] at h9 ⊢
  refine wp_adcx (fun v10 c10 h10 => ?_)
  dsimp only [Cpu.set, Cpu.get] at h10 ⊢
  refine wp_mulx (stkRead_frame [t0, z] P5 P4 P3 P2 P1 P0 N s0 s1 s2 s3 s4 s5).2.2.2.2.1 (fun l11 u11 h11 => ?_)
  dsimp only [Cpu.set, Cpu.get] at h11 ⊢
  have b11 := mul_hi h11 (u64_lt _) (u64_lt _)
  refine wp_adox (fun v12 c12 h12 => ?_)
  dsimp only [Cpu.set, Cpu.get] at h12 ⊢
  refine wp_adcx (fun v13 c13 h13 => ?_)
  dsimp only [Cpu.set, Cpu.get] at h13 ⊢
  refine wp_mulx (stkRead_frame [t0, z] P5 P4 P3 P2 P1 P0 N s0 s1 s2 s3 s4 s5).2.2.2.2.2.1 (fun l14 u14 h14 => ?_)
  dsimp only [Cpu.set, Cpu.get] at h14 ⊢
  have b14 := mul_hi h14 (u64_lt _) (u64_lt _)
  refine wp_adox (fun v15 c15 h15 => ?_)
  dsimp only [Cpu.set, Cpu.get] at h15 ⊢
  refine wp_adcx (fun v16 c16 h16 => ?_)
  dsimp only [Cpu.set, Cpu.get] at h16 ⊢
  refine wp_mulx (stkRead_frame [t0, z] P5 P4 P3 P2 P1 P0 N s0 s1 s2 s3 s4 s5).2.2.2.2.2.2 (fun l17 u17 h17 => ?_)
  dsimp only [Cpu.set, Cpu.get] at h17 ⊢
  have b17 := mul_hi61 h17 (u64_lt _) hP5
  refine wp_adox (fun v18 c18 h18 => ?_)
  dsimp only [Cpu.set, Cpu.get] at h18 ⊢
  refine wp_adcx (fun v19 c19 h19 => ?_)
  dsimp only [Cpu.set, Cpu.get] at h19 ⊢
  refine wp_adox (fun v20 c20 h20 => ?_)
  dsimp only [Cpu.set, Cpu.get] at h20 ⊢
  simp only [y3, zero_add, add_zero] at h20
  refine wp_adcx (fun v21 c21 h21 => ?_)
  dsimp only [Cpu.set, Cpu.get] at h21 ⊢
  obtain ⟨b21, z21⟩ := adc_small h21 (le_of_eq y3) (le_of_eq y3) (Bool.toNat_le _) (by norm_num)
  rw [z21, Nat.mul_zero, Nat.add_zero] at h21
  simp only [y3, zero_add, add_zero] at h21
  refine wp_mov rfl ?_
  dsimp only [Cpu.set, Cpu.get]
  refine wp_adox (fun v22 c22 h22 => ?_)
  dsimp only [Cpu.set, Cpu.get] at h22 ⊢
  obtain ⟨b22, z22⟩ := adc_small h22 b21 (le_of_eq UInt64.toNat_zero) (Bool.toNat_le _) (by norm_num)
  rw [z22, Nat.mul_zero, Nat.add_zero] at h22
  simp only [UInt64.toNat_zero, add_zero, zero_add] at h22
  refine wp_xor_self ?_
  dsimp only [Cpu.set]
  have key : 2 ^ 64 * v6.toNat + 2 ^ 128 * v9.toNat + 2 ^ 192 * v12.toNat + 2 ^ 256 * v15.toNat + 2 ^ 320 * v18.toNat + 2 ^ 384 * v20.toNat + 2 ^ 448 * v22.toNat = rbx.toNat + 2 ^ 64 * rdi.toNat + 2 ^ 128 * r8.toNat + 2 ^ 192 * r9.toNat + 2 ^ 256 * r10.toNat + 2 ^ 320 * r11.toNat + 2 ^ 384 * r12.toNat + l1.toNat * (P0.toNat + 2 ^ 64 * P1.toNat + 2 ^ 128 * P2.toNat + 2 ^ 192 * P3.toNat + 2 ^ 256 * P4.toNat + 2 ^ 320 * P5.toNat) := by
    linear_combination 2 ^ 448 * h22 + 2 ^ 448 * h21 + 2 ^ 384 * h20 + 2 ^ 384 * h19 + 2 ^ 320 * h18 + 2 ^ 320 * h17 + 2 ^ 320 * h16 + 2 ^ 256 * h15 + 2 ^ 256 * h14 + 2 ^ 256 * h13 + 2 ^ 192 * h12 + 2 ^ 192 * h11 + 2 ^ 192 * h10 + 2 ^ 128 * h9 + 2 ^ 128 * h8 + 2 ^ 128 * h7 + 2 ^ 64 * h6 + 2 ^ 64 * h5 + 2 ^ 64 * h4 + h3 + h2
  have keyb : v22.toNat ≤ 2 := by have := b22; omega
  exact H l1 v6 v9 v12 v15 u17 v18 v20 v22 key keyb

theorem mul_ex_mont1_wp {is : List Instr} {Q : Cpu → Prop}
    {rbx rcx rdx rsi rdi r8 r9 r10 r11 r12 r13 r14 r15 t0 z P5 P4 P3 P2 P1 P0 N s0 s1 s2 s3 s4 s5 : UInt64} {m : UInt64 → UInt64}
    (hN : (N.toNat * P0.toNat + 1) % 2 ^ 64 = 0)
    (hP5 : P5.toNat ≤ 2 ^ 61)
    (hcy : rbx.toNat ≤ 2)
    (H : ∀ (l1 : UInt64) (v6 : UInt64) (v9 : UInt64) (v12 : UInt64) (v15 : UInt64) (u17 : UInt64) (v18 : UInt64) (v20 : UInt64) (v22 : UInt64), (2 ^ 64 * v6.toNat + 2 ^ 128 * v9.toNat + 2 ^ 192 * v12.toNat + 2 ^ 256 * v15.toNat + 2 ^ 320 * v18.toNat + 2 ^ 384 * v20.toNat + 2 ^ 448 * v22.toNat = rdi.toNat + 2 ^ 64 * r8.toNat + 2 ^ 128 * r9.toNat + 2 ^ 192 * r10.toNat + 2 ^ 256 * r11.toNat + 2 ^ 320 * r12.toNat + 2 ^ 384 * rbx.toNat + 2 ^ 384 * r13.toNat + l1.toNat * (P0.toNat + 2 ^ 64 * P1.toNat + 2 ^ 128 * P2.toNat + 2 ^ 192 * P3.toNat + 2 ^ 256 * P4.toNat + 2 ^ 320 * P5.toNat)) → (v22.toNat ≤ 2) → wp is Q ⟨0, rbx, rcx, l1, u17, v22, 0xffffffffffffffc8, v6, v9, v12, v15, v18, v20, r14, r15, false, false, [t0, z, P5, P4, P3, P2, P1, P0, N, s0, s1, s2, s3, s4, s5], m⟩) :
    wp (Asm.mul_ex_mont1 ++ is) Q ⟨0, rbx, rcx, rdx, rsi, rdi, 0xffffffffffffffc8, r8, r9, r10, r11, r12, r13, r14, r15, false, false, [t0, z, P5, P4, P3, P2, P1, P0, N, s0, s1, s2, s3, s4, s5], m⟩ := by
  simp only [Asm.mul_ex_mont1, List.cons_append, List.nil_append]
  refine wp_mov rfl ?_
  dsimp only [Cpu.set, Cpu.get]
  refine wp_mulx (stkRead_frame [t0, z] P5 P4 P3 P2 P1 P0 N s0 s1 s2 s3 s4 s5).1 (fun l1 u1 h1 => ?_)
  dsimp only [Cpu.set, Cpu.get] at h1 ⊢
  have b1 := mul_hi h1 (u64_lt _) (u64_lt _)
  refine wp_mulx (stkRead_frame [t0, z] P5 P4 P3 P2 P1 P0 N s0 s1 s2 s3 s4 s5).2.1 (fun l2 u2 h2 => ?_)
  dsimp only [Cpu.set, Cpu.get] at h2 ⊢
  have b2 := mul_hi h2 (u64_lt _) (u64_lt _)
  rw [Nat.mul_comm _ P0.toNat] at h2
  refine wp_adox (fun v3 c3 h3 => ?_)
  dsimp only [Cpu.set, Cpu.get] at h3 ⊢
  simp only [Bool.toNat_false, add_zero, zero_add] at h3
  have y3 := mont_low h1 h2 h3 (u64_lt _) hN
  rw [y3, Nat.zero_add] at h3
  refine wp_adcx (fun v4 c4 h4 => ?_)
  dsimp only [Cpu.set, Cpu.get] at h4 ⊢
  simp only [Bool.toNat_false, add_zero, zero_add] at h4
  refine wp_mulx (stkRead_frame [t0, z] P5 P4 P3 P2 P1 P0 N s0 s1 s2 s3 s4 s5).2.2.1 (fun l5 u5 h5 => ?_)
  dsimp only [Cpu.set, Cpu.get] at h5 ⊢
  have b5 := mul_hi h5 (u64_lt _) (u64_lt _)
  refine wp_adox (fun v6 c6 h6 => ?_)
  dsimp only [Cpu.set, Cpu.get] at h6 ⊢
  refine wp_adcx (fun v7 c7 h7 => ?_)
  dsimp only [Cpu.set, Cpu.get] at h7 ⊢
  refine wp_mulx (stkRead_frame [t0, z] P5 P4 P3 P2 P1 P0 N s0 s1 s2 s3 s4 s5).2.2.2.1 (fun l8 u8 h8 => ?_)
  dsimp only [Cpu.set, Cpu.get] at h8 ⊢
  have b8 := mul_hi h8 (u64_lt _) (u64_lt _)
  refine wp_adox (fun v9 c9 h9 => ?_)
  dsimp only [Cpu.set, Cpu.get] at h9 ⊢
  refine wp_adcx (fun v10 c10 h10 => ?_)
  dsimp only [Cpu.set, Cpu.get] at h10 ⊢
  refine wp_mulx (stkRead_frame [t0, z] P5 P4 P3 P2 P1 P0 N s0 s1 s2 s3 s4 s5).2.2.2.2.1 (fun l11 u11 h11 => ?_)
  dsimp only [Cpu.set, Cpu.get] at h11 ⊢
  have b11 := mul_hi h11 (u64_lt _) (u64_lt _)
  refine wp_adox (fun v12 c12 h12 => ?_)
  dsimp only [Cpu.set, Cpu.get] at h12 ⊢
  refine wp_adcx (fun v13 c13 h13 => ?_)
  dsimp only [Cpu.set, Cpu.get] at h13 ⊢
  refine wp_mulx (stkRead_frame [t0, z] P5 P4 P3 P2 P1 P0 N s0 s1 s2 s3 s4 s5).2.2.2.2.2.1 (fun l14 u14 h14 => ?_)
  dsimp only [Cpu.set, Cpu.get] at h14 ⊢
  have b14 := mul_hi h14 (u64_lt _) (u64_lt _)
  refine wp_adox (fun v15 c15 h15 => ?_)
  dsimp only [Cpu.set, Cpu.get] at h15 ⊢
  refine wp_adcx (fun v16 c16 h16 => ?_)
  dsimp only [Cpu.set, Cpu.get] at h16 ⊢
  refine wp_mulx (stkRead_frame [t0, z] P5 P4 P3 P2 P1 P0 N s0 s1 s2 s3 s4 s5).2.2.2.2.2.2 (fun l17 u17 h17 => ?_)
  dsimp only [Cpu.set, Cpu.get] at h17 ⊢
  have b17 := mul_hi61 h17 (u64_lt _) hP5
  refine wp_adox (fun v18 c18 h18 => ?_)
  dsimp only [Cpu.set, Cpu.get] at h18 ⊢
  refine wp_adcx (fun v19 c19 h19 => ?_)
  dsimp only [Cpu.set, Cpu.get] at h19 ⊢
  refine wp_adox (fun v20 c20 h20 => ?_)
  dsimp only [Cpu.set, Cpu.get] at h20 ⊢
  refine wp_adcx (fun v21 c21 h21 => ?_)
  dsimp only [Cpu.set, Cpu.get] at h21 ⊢
  obtain ⟨b21, z21⟩ := adc_small h21 (le_of_eq y3) (le_of_eq y3) (Bool.toNat_le _) (by norm_num)
  rw [z21, Nat.mul_zero, Nat.add_zero] at h21
  simp only [y3, zero_add, add_zero] at h21
  refine wp_mov rfl ?_
  dsimp only [Cpu.set, Cpu.get]
  refine wp_adox (fun v22 c22 h22 => ?_)
  dsimp only [Cpu.set, Cpu.get] at h22 ⊢
  obtain ⟨b22, z22⟩ := adc_small h22 b21 (le_of_eq UInt64.toNat_zero) (Bool.toNat_le _) (by norm_num)
  rw [z22, Nat.mul_zero, Nat.add_zero] at h22
  simp only [UInt64.toNat_zero, add_zero, zero_add] at h22
  refine wp_xor_self ?_
  dsimp only [Cpu.set]
  have key : 2 ^ 64 * v6.toNat + 2 ^ 128 * v9.toNat + 2 ^ 192 * v12.toNat + 2 ^ 256 * v15.toNat + 2 ^ 320 * v18.toNat + 2 ^ 384 * v20.toNat + 2 ^ 448 * v22.toNat = rdi.toNat + 2 ^ 64 * r8.toNat + 2 ^ 128 * r9.toNat + 2 ^ 192 * r10.toNat + 2 ^ 256 * r11.toNat + 2 ^ 320 * r12.toNat + 2 ^ 384 * rbx.toNat + 2 ^ 384 * r13.toNat + l1.toNat * (P0.toNat + 2 ^ 64 * P1.toNat + 2 ^ 128 * P2.toNat + 2 ^ 192 * P3.toNat + 2 ^ 256 * P4.toNat + 2 ^ 320 * P5.toNat) := by
    linear_combination 2 ^ 448 * h22 + 2 ^ 448 * h21 + 2 ^ 384 * h20 + 2 ^ 384 * h19 + 2 ^ 320 * h18 + 2 ^ 320 * h17 + 2 ^ 320 * h16 + 2 ^ 256 * h15 + 2 ^ 256 * h14 + 2 ^ 256 * h13 + 2 ^ 192 * h12 + 2 ^ 192 * h11 + 2 ^ 192 * h10 + 2 ^ 128 * h9 + 2 ^ 128 * h8 + 2 ^ 128 * h7 + 2 ^ 64 * h6 + 2 ^ 64 * h5 + 2 ^ 64 * h4 + h3 + h2
  have keyb : v22.toNat ≤ 2 := by have := b22; omega
  exact H l1 v6 v9 v12 v15 u17 v18 v20 v22 key keyb

theorem mul_ex_mont2_wp {is : List Instr} {Q : Cpu → Prop}
    {rbx rcx rdx rsi rdi r8 r9 r10 r11 r12 r13 r14 r15 t0 z P5 P4 P3 P2 P1 P0 N s0 s1 s2 s3 s4 s5 : UInt64} {m : UInt64 → UInt64}
    (hN : (N.toNat * P0.toNat + 1) % 2 ^ 64 = 0)
    (hP5 : P5.toNat ≤ 2 ^ 61)
    (hcy : rdi.toNat ≤ 2)
    (H : ∀ (l1 : UInt64) (v6 : UInt64) (v9 : UInt64) (v12 : UInt64) (v15 : UInt64) (u17 : UInt64) (v18 : UInt64) (v20 : UInt64) (v22 : UInt64), (2 ^ 64 * v6.toNat + 2 ^ 128 * v9.toNat + 2 ^ 192 * v12.toNat + 2 ^ 256 * v15.toNat + 2 ^ 320 * v18.toNat + 2 ^ 384 * v20.toNat + 2 ^ 448 * v22.toNat = r8.toNat + 2 ^ 64 * r9.toNat + 2 ^ 128 * r10.toNat + 2 ^ 192 * r11.toNat + 2 ^ 256 * r12.toNat + 2 ^ 320 * r13.toNat + 2 ^ 384 * rdi.toNat + 2 ^ 384 * r14.toNat + l1.toNat * (P0.toNat + 2 ^ 64 * P1.toNat + 2 ^ 128 * P2.toNat + 2 ^ 192 * P3.toNat + 2 ^ 256 * P4.toNat + 2 ^ 320 * P5.toNat)) → (v22.toNat ≤ 2) → wp is Q ⟨0, rbx, rcx, l1, u17, rdi, 0xffffffffffffffc8, v22, v6, v9, v12, v15, v18, v20, r15, false, false, [t0, z, P5, P4, P3, P2, P1, P0, N, s0, s1, s2, s3, s4, s5], m⟩) :
    wp (Asm.mul_ex_mont2 ++ is) Q ⟨0, rbx, rcx, rdx, rsi, rdi, 0xffffffffffffffc8, r8, r9, r10, r11, r12, r13, r14, r15, false, false, [t0, z, P5, P4, P3, P2, P1, P0, N, s0, s1, s2, s3, s4, s5], m⟩ := by
  simp only [Asm.mul_ex_mont2, List.cons_append, List.nil_append]
  refine wp_mov rfl ?_
  dsimp only [Cpu.set, Cpu.get]
  refine wp_mulx (stkRead_frame [t0, z] P5 P4 P3 P2 P1 P0 N s0 s1 s2 s3 s4 s5).1 (fun l1 u1 h1 => ?_)
  dsimp only [Cpu.set, Cpu.get] at h1 ⊢
  have b1 := mul_hi h1 (u64_lt _) (u64_lt _)
  refine wp_mulx (stkRead_frame [t0, z] P5 P4 P3 P2 P1 P0 N s0 s1 s2 s3 s4 s5).2.1 (fun l2 u2 h2 => ?_)
  dsimp only [Cpu.set, Cpu.get] at h2 ⊢
  have b2 := mul_hi h2 (u64_lt _) (u64_lt _)
  rw [Nat.mul_comm _ P0.toNat] at h2
  refine wp_adox (fun v3 c3 h3 => ?_)
  dsimp only [Cpu.set, Cpu.get] at h3 ⊢
  simp only [Bool.toNat_false, add_zero, zero_add] at h3
  have y3 := mont_low h1 h2 h3 (u64_lt _) hN
  rw [y3, Nat.zero_add] at h3
  refine wp_adcx (fun v4 c4 h4 => ?_)
  dsimp only [Cpu.set, Cpu.get] at h4 ⊢
  simp only [Bool.toNat_false, add_zero, zero_add] at h4
  refine wp_mulx (stkRead_frame [t0, z] P5 P4 P3 P2 P1 P0 N s0 s1 s2 s3 s4 s5).2.2.1 (fun l5 u5 h5 => ?_)
  dsimp only [Cpu.set, Cpu.get] at h5 ⊢
  have b5 := mul_hi h5 (u64_lt _) (u64_lt _)
  refine wp_adox (fun v6 c6 h6 => ?_)
  dsimp only [Cpu.set, Cpu.get] at h6 ⊢
  refine wp_adcx (fun v7 c7 h7 => ?_)
  dsimp only [Cpu.set, Cpu.get] at h7 ⊢
  refine wp_mulx (stkRead_frame [t0, z] P5 P4 P3 P2 P1 P0 N s0 s1 s2 s3 s4 s5).2.2.2.1 (fun l8 u8 h8 => ?_)
  dsimp only [Cpu.set, Cpu.get] at h8 ⊢
  have b8 := mul_hi h8 (u64_lt _) (u64_lt _)
  refine wp_adox (fun v9 c9 h9 => ?_)
  dsimp only [Cpu.set, Cpu.get] at h9 ⊢
  refine wp_adcx (fun v10 c10 h10 => ?_)
  dsimp only [Cpu.set, Cpu.get] at h10 ⊢
  refine wp_mulx (stkRead_frame [t0, z] P5 P4 P3 P2 P1 P0 N s0 s1 s2 s3 s4 s5).2.2.2.2.1 (fun l11 u11 h11 => ?_)
  dsimp only [Cpu.set, Cpu.get] at h11 ⊢
  have b11 := mul_hi h11 (u64_lt _) (u64_lt _)
  refine wp_adox (fun v12 c12 h12 => ?_)
  dsimp only [Cpu.set, Cpu.get] at h12 ⊢
  refine wp_adcx (fun v13 c13 h13 => ?_)
  dsimp only [Cpu.set, Cpu.get] at h13 ⊢
  refine wp_mulx (stkRead_frame [t0, z] P5 P4 P3 P2 P1 P0 N s0 s1 s2 s3 s4 s5).2.2.2.2.2.1 (fun l14 u14 h14 => ?_)
  dsimp only [Cpu.set, Cpu.get] at h14 ⊢
  have b14 := mul_hi h14 (u64_lt _) (u64_lt _)
  refine wp_adox (fun v15 c15 h15 => ?_)
  dsimp only [Cpu.set, Cpu.get] at h15 ⊢
  refine wp_adcx (fun v16 c16 h16 => ?_)
  dsimp only [Cpu.set, Cpu.get] at h16 ⊢
  refine wp_mulx (stkRead_frame [t0, z] P5 P4 P3 P2 P1 P0 N s0 s1 s2 s3 s4 s5).2.2.2.2.2.2 (fun l17 u17 h17 => ?_)
  dsimp only [Cpu.set, Cpu.get] at h17 ⊢
  have b17 := mul_hi61 h17 (u64_lt _) hP5
  refine wp_adox (fun v18 c18 h18 => ?_)
  dsimp only [Cpu.set, Cpu.get] at h18 ⊢
  refine wp_adcx (fun v19 c19 h19 => ?_)
  dsimp only [Cpu.set, Cpu.get] at h19 ⊢
  refine wp_adox (fun v20 c20 h20 => ?_)
  dsimp only [Cpu.set, Cpu.get] at h20 ⊢
  refine wp_adcx (fun v21 c21 h21 => ?_)
  dsimp only [Cpu.set, Cpu.get] at h21 ⊢
  obtain ⟨b21, z21⟩ := adc_small h21 (le_of_eq y3) (le_of_eq y3) (Bool.toNat_le _) (by norm_num)
  rw [z21, Nat.mul_zero, Nat.add_zero] at h21
  simp only [y3, zero_add, add_zero] at h21
  refine wp_mov rfl ?_
  dsimp only [Cpu.set, Cpu.get]
  refine wp_adox (fun v22 c22 h22 => ?_)
  dsimp only [Cpu.set, Cpu.get] at h22 ⊢
  obtain ⟨b22, z22⟩ := adc_small h22 b21 (le_of_eq UInt64.toNat_zero) (Bool.toNat_le _) (by norm_num)
  rw [z22, Nat.mul_zero, Nat.add_zero] at h22
  simp only [UInt64.toNat_zero, add_zero, zero_add] at h22
  refine wp_xor_self ?_
  dsimp only [Cpu.set]
  have key : 2 ^ 64 * v6.toNat + 2 ^ 128 * v9.toNat + 2 ^ 192 * v12.toNat + 2 ^ 256 * v15.toNat + 2 ^ 320 * v18.toNat + 2 ^ 384 * v20.toNat + 2 ^ 448 * v22.toNat = r8.toNat + 2 ^ 64 * r9.toNat + 2 ^ 128 * r10.toNat + 2 ^ 192 * r11.toNat + 2 ^ 256 * r12.toNat + 2 ^ 320 * r13.toNat + 2 ^ 384 * rdi.toNat + 2 ^ 384 * r14.toNat + l1.toNat * (P0.toNat + 2 ^ 64 * P1.toNat + 2 ^ 128 * P2.toNat + 2 ^ 192 * P3.toNat + 2 ^ 256 * P4.toNat + 2 ^ 320 * P5.toNat) := by
    linear_combination 2 ^ 448 * h22 + 2 ^ 448 * h21 + 2 ^ 384 * h20 + 2 ^ 384 * h19 + 2 ^ 320 * h18 + 2 ^ 320 * h17 + 2 ^ 320 * h16 + 2 ^ 256 * h15 + 2 ^ 256 * h14 + 2 ^ 256 * h13 + 2 ^ 192 * h12 + 2 ^ 192 * h11 + 2 ^ 192 * h10 + 2 ^ 128 * h9 + 2 ^ 128 * h8 + 2 ^ 128 * h7 + 2 ^ 64 * h6 + 2 ^ 64 * h5 + 2 ^ 64 * h4 + h3 + h2
  have keyb : v22.toNat ≤ 2 := by have := b22; omega
  exact H l1 v6 v9 v12 v15 u17 v18 v20 v22 key keyb

theorem mul_ex_mont3_wp {is : List Instr} {Q : Cpu → Prop}
    {rbx rcx rdx rsi rdi r8 r9 r10 r11 r12 r13 r14 r15 t0 z P5 P4 P3 P2 P1 P0 N s0 s1 s2 s3 s4 s5 : UInt64} {m : UInt64 → UInt64}
    (hN : (N.toNat * P0.toNat + 1) % 2 ^ 64 = 0)
    (hP5 : P5.toNat ≤ 2 ^ 61)
    (hcy : r8.toNat ≤ 2)
    (H : ∀ (l1 : UInt64) (v6 : UInt64) (v9 : UInt64) (v12 : UInt64) (v15 : UInt64) (u17 : UInt64) (v18 : UInt64) (v20 : UInt64) (v22 : UInt64), (2 ^ 64 * v6.toNat + 2 ^ 128 * v9.toNat + 2 ^ 192 * v12.toNat + 2 ^ 256 * v15.toNat + 2 ^ 320 * v18.toNat + 2 ^ 384 * v20.toNat + 2 ^ 448 * v22.toNat = r9.toNat + 2 ^ 64 * r10.toNat + 2 ^ 128 * r11.toNat + 2 ^ 192 * r12.toNat + 2 ^ 256 * r13.toNat + 2 ^ 320 * r14.toNat + 2 ^ 384 * r8.toNat + 2 ^ 384 * r15.toNat + l1.toNat * (P0.toNat + 2 ^ 64 * P1.toNat + 2 ^ 128 * P2.toNat + 2 ^ 192 * P3.toNat + 2 ^ 256 * P4.toNat + 2 ^ 320 * P5.toNat)) → (v22.toNat ≤ 2) → wp is Q ⟨0, rbx, rcx, l1, u17, rdi, 0xffffffffffffffc8, r8, v22, v6, v9, v12, v15, v18, v20, false, false, [t0, z, P5, P4, P3, P2, P1, P0, N, s0, s1, s2, s3, s4, s5], m⟩) :
    wp (Asm.mul_ex_mont3 ++ is) Q ⟨0, rbx, rcx, rdx, rsi, rdi, 0xffffffffffffffc8, r8, r9, r10, r11, r12, r13, r14, r15, false, false, [t0, z, P5, P4, P3, P2, P1, P0, N, s0, s1, s2, s3, s4, s5], m⟩ := by
  simp only [Asm.mul_ex_mont3, List.cons_append, List.nil_append]
  refine wp_mov rfl ?_
  dsimp only [Cpu.set, Cpu.get]
  refine wp_mulx (stkRead_frame [t0, z] P5 P4 P3 P2 P1 P0 N s0 s1 s2 s3 s4 s5).1 (fun l1 u1 h1 => ?_)
  dsimp only [Cpu.set, Cpu.get] at h1 ⊢
  have b1 := mul_hi h1 (u64_lt _) (u64_lt _)
  refine wp_mulx (stkRead_frame [t0, z] P5 P4 P3 P2 P1 P0 N s0 s1 s2 s3 s4 s5).2.1 (fun l2 u2 h2 => ?_)
  dsimp only [Cpu.set, Cpu.get] at h2 ⊢
  have b2 := mul_hi h2 (u64_lt _) (u64_lt _)
  rw [Nat.mul_comm _ P0.toNat] at h2
  refine wp_adox (fun v3 c3 h3 => ?_)
  dsimp only [Cpu.set, Cpu.get] at h3 ⊢
  simp only [Bool.toNat_false, add_zero, zero_add] at h3
  have y3 := mont_low h1 h2 h3 (u64_lt _) hN
  rw [y3, Nat.zero_add] at h3
  refine wp_adcx (fun v4 c4 h4 => ?_)
  dsimp only [Cpu.set, Cpu.get] at h4 ⊢
  simp only [Bool.toNat_false, add_zero, zero_add] at h4
  refine wp_mulx (stkRead_frame [t0, z] P5 P4 P3 P2 P1 P0 N s0 s1 s2 s3 s4 s5).2.2.1 (fun l5 u5 h5 => ?_)
  dsimp only [Cpu.set, Cpu.get] at h5 ⊢
  have b5 := mul_hi h5 (u64_lt _) (u64_lt _)
  refine wp_adox (fun v6 c6 h6 => ?_)
  dsimp only [Cpu.set, Cpu.get] at h6 ⊢
  refine wp_adcx (fun v7 c7 h7 => ?_)
  dsimp only [Cpu.set, Cpu.get] at h7 ⊢
  refine wp_mulx (stkRead_frame [t0, z] P5 P4 P3 P2 P1 P0 N s0 s1 s2 s3 s4 s5).2.2.2.1 (fun l8 u8 h8 => ?_)
  dsimp only [Cpu.set, Cpu.get] at h8 ⊢
  have b8 := mul_hi h8 (u64_lt _) (u64_lt _)
  refine wp_adox (fun v9 c9 h9 => ?_)
  dsimp only [Cpu.set, Cpu.get] at h9 ⊢
  refine wp_adcx (fun v10 c10 h10 => ?_)
  dsimp only [Cpu.set, Cpu.get] at h10 ⊢
  refine wp_mulx (stkRead_frame [t0, z] P5 P4 P3 P2 P1 P0 N s0 s1 s2 s3 s4 s5).2.2.2.2.1 (fun l11 u11 h11 => ?_)
  dsimp only [Cpu.set, Cpu.get] at h11 ⊢
  have b11 := mul_hi h11 (u64_lt _) (u64_lt _)
  refine wp_adox (fun v12 c12 h12 => ?_)
  dsimp only [Cpu.set, Cpu.get] at h12 ⊢
  refine wp_adcx (fun v13 c13 h13 => ?_)
  dsimp only [Cpu.set, Cpu.get] at h13 ⊢
  refine wp_mulx (stkRead_frame [t0, z] P5 P4 P3 P2 P1 P0 N s0 s1 s2 s3 s4 s5).2.2.2.2.2.1 (fun l14 u14 h14 => ?_)
  dsimp only [Cpu.set, Cpu.get] at h14 ⊢
  have b14 := mul_hi h14 (u64_lt _) (u64_lt _)
  refine wp_adox (fun v15 c15 h15 => ?_)
  dsimp only [Cpu.set, Cpu.get] at h15 ⊢
  refine wp_adcx (fun v16 c16 h16 => ?_)
  dsimp only [Cpu.set, Cpu.get] at h16 ⊢
  refine wp_mulx (stkRead_frame [t0, z] P5 P4 P3 P2 P1 P0 N s0 s1 s2 s3 s4 s5).2.2.2.2.2.2 (fun l17 u17 h17 => ?_)
  dsimp only [Cpu.set, Cpu.get] at h17 ⊢
  have b17 := mul_hi61 h17 (u64_lt _) hP5
  refine wp_adox (fun v18 c18 h18 => ?_)
  dsimp only [Cpu.set, Cpu.get] at h18 ⊢
  refine wp_adcx (fun v19 c19 h19 => ?_)
  dsimp only [Cpu.set, Cpu.get] at h19 ⊢
  refine wp_adox (fun v20 c20 h20 => ?_)
  dsimp only [Cpu.set, Cpu.get] at h20 ⊢
  refine wp_adcx (fun v21 c21 h21 => ?_)
  dsimp only [Cpu.set, Cpu.get] at h21 ⊢
  obtain ⟨b21, z21⟩ := adc_small h21 (le_of_eq y3) (le_of_eq y3) (Bool.toNat_le _) (by norm_num)
  rw [z21, Nat.mul_zero, Nat.add_zero] at h21
  simp only [y3, zero_add, add_zero] at h21
  refine wp_mov rfl ?_
  dsimp only [Cpu.set, Cpu.get]
  refine wp_adox (fun v22 c22 h22 => ?_)
  dsimp only [Cpu.set, Cpu.get] at h22 ⊢
  obtain ⟨b22, z22⟩ := adc_small h22 b21 (le_of_eq UInt64.toNat_zero) (Bool.toNat_le _) (by norm_num)
  rw [z22, Nat.mul_zero, Nat.add_zero] at h22
  simp only [UInt64.toNat_zero, add_zero, zero_add] at h22
  refine wp_xor_self ?_
  dsimp only [Cpu.set]
  have key : 2 ^ 64 * v6.toNat + 2 ^ 128 * v9.toNat + 2 ^ 192 * v12.toNat + 2 ^ 256 * v15.toNat + 2 ^ 320 * v18.toNat + 2 ^ 384 * v20.toNat + 2 ^ 448 * v22.toNat = r9.toNat + 2 ^ 64 * r10.toNat + 2 ^ 128 * r11.toNat + 2 ^ 192 * r12.toNat + 2 ^ 256 * r13.toNat + 2 ^ 320 * r14.toNat + 2 ^ 384 * r8.toNat + 2 ^ 384 * r15.toNat + l1.toNat * (P0.toNat + 2 ^ 64 * P1.toNat + 2 ^ 128 * P2.toNat + 2 ^ 192 * P3.toNat + 2 ^ 256 * P4.toNat + 2 ^ 320 * P5.toNat) := by
    linear_combination 2 ^ 448 * h22 + 2 ^ 448 * h21 + 2 ^ 384 * h20 + 2 ^ 384 * h19 + 2 ^ 320 * h18 + 2 ^ 320 * h17 + 2 ^ 320 * h16 + 2 ^ 256 * h15 + 2 ^ 256 * h14 + 2 ^ 256 * h13 + 2 ^ 192 * h12 + 2 ^ 192 * h11 + 2 ^ 192 * h10 + 2 ^ 128 * h9 + 2 ^ 128 * h8 + 2 ^ 128 * h7 + 2 ^ 64 * h6 + 2 ^ 64 * h5 + 2 ^ 64 * h4 + h3 + h2
  have keyb : v22.toNat ≤ 2 := by have := b22; omega
  exact H l1 v6 v9 v12 v15 u17 v18 v20 v22 key keyb

theorem mul_ex_mont4_wp {is : List Instr} {Q : Cpu → Prop}
    {rbx rcx rdx rsi rdi r8 r9 r10 r11 r12 r13 r14 r15 t0 z P5 P4 P3 P2 P1 P0 N s0 s1 s2 s3 s4 s5 : UInt64} {m : UInt64 → UInt64}
    (hN : (N.toNat * P0.toNat + 1) % 2 ^ 64 = 0)
    (hP5 : P5.toNat ≤ 2 ^ 61)
    (hcy : r9.toNat ≤ 2)
    (H : ∀ (l1 : UInt64) (v6 : UInt64) (v9 : UInt64) (v12 : UInt64) (v15 : UInt64) (u17 : UInt64) (v18 : UInt64) (v20 : UInt64) (v22 : UInt64), (2 ^ 64 * v6.toNat + 2 ^ 128 * v9.toNat + 2 ^ 192 * v12.toNat + 2 ^ 256 * v15.toNat + 2 ^ 320 * v18.toNat + 2 ^ 384 * v20.toNat + 2 ^ 448 * v22.toNat = r10.toNat + 2 ^ 64 * r11.toNat + 2 ^ 128 * r12.toNat + 2 ^ 192 * r13.toNat + 2 ^ 256 * r14.toNat + 2 ^ 320 * r15.toNat + 2 ^ 384 * r9.toNat + 2 ^ 384 * rcx.toNat + l1.toNat * (P0.toNat + 2 ^ 64 * P1.toNat + 2 ^ 128 * P2.toNat + 2 ^ 192 * P3.toNat + 2 ^ 256 * P4.toNat + 2 ^ 320 * P5.toNat)) → (v22.toNat ≤ 2) → wp is Q ⟨0, rbx, v20, l1, u17, rdi, 0xffffffffffffffc8, r8, r9, v22, v6, v9, v12, v15, v18, false, false, [t0, z, P5, P4, P3, P2, P1, P0, N, s0, s1, s2, s3, s4, s5], m⟩) :
    wp (Asm.mul_ex_mont4 ++ is) Q ⟨0, rbx, rcx, rdx, rsi, rdi, 0xffffffffffffffc8, r8, r9, r10, r11, r12, r13, r14, r15, false, false, [t0, z, P5, P4, P3, P2, P1, P0, N, s0, s1, s2, s3, s4, s5], m⟩ := by
  simp only [Asm.mul_ex_mont4, List.cons_append, List.nil_append]
  refine wp_mov rfl ?_
  dsimp only [Cpu.set, Cpu.get]
  refine wp_mulx (stkRead_frame [t0, z] P5 P4 P3 P2 P1 P0 N s0 s1 s2 s3 s4 s5).1 (fun l1 u1 h1 => ?_)
  dsimp only [Cpu.set, Cpu.get] at h1 ⊢
  have b1 := mul_hi h1 (u64_lt _) (u64_lt _)
  refine wp_mulx (stkRead_frame [t0, z] P5 P4 P3 P2 P1 P0 N s0 s1 s2 s3 s4 s5).2.1 (fun l2 u2 h2 => ?_)
  dsimp only [Cpu.set, Cpu.get] at h2 ⊢
  have b2 := mul_hi h2 (u64_lt _) (u64_lt _)
  rw [Nat.mul_comm _ P0.toNat] at h2
  refine wp_adox (fun v3 c3 h3 => ?_)
  dsimp only [Cpu.set, Cpu.get] at h3 ⊢
  simp only [Bool.toNat_false, add_zero, zero_add] at h3
  have y3 := mont_low h1 h2 h3 (u64_lt _) hN
  rw [y3, Nat.zero_add] at h3
  refine wp_adcx (fun v4 c4 h4 => ?_)
  dsimp only [Cpu.set, Cpu.get] at h4 ⊢
  simp only [Bool.toNat_false, add_zero, zero_add] at h4
  refine wp_mulx (stkRead_frame [t0, z] P5 P4 P3 P2 P1 P0 N s0 s1 s2 s3 s4 s5).2.2.1 (fun l5 u5 h5 => ?_)
  dsimp only [Cpu.set, Cpu.get] at h5 ⊢
  have b5 := mul_hi h5 (u64_lt _) (u64_lt _)
  refine wp_adox (fun v6 c6 h6 => ?_)
  dsimp only [Cpu.set, Cpu.get] at h6 ⊢
  refine wp_adcx (fun v7 c7 h7 => ?_)
  dsimp only [Cpu.set, Cpu.get] at h7 ⊢
  refine wp_mulx (stkRead_frame [t0, z] P5 P4 P3 P2 P1 P0 N s0 s1 s2 s3 s4 s5).2.2.2.1 (fun l8 u8 h8 => ?_)
  dsimp only [Cpu.set, Cpu.get] at h8 ⊢
  have b8 := mul_hi h8 (u64_lt _) (u64_lt _)
  refine wp_adox (fun v9 c9 h9 => ?_)
  dsimp only [Cpu.set, Cpu.get] at h9 ⊢
  refine wp_adcx (fun v10 c10 h10 => ?_)
  dsimp only [Cpu.set, Cpu.get] at h10 ⊢
  refine wp_mulx (stkRead_frame [t0, z] P5 P4 P3 P2 P1 P0 N s0 s1 s2 s3 s4 s5).2.2.2.2.1 (fun l11 u11 h11 => ?_)
  dsimp only [Cpu.set, Cpu.get] at h11 ⊢
  have b11 := mul_hi h11 (u64_lt _) (u64_lt _)
  refine wp_adox (fun v12 c12 h12 => ?_)
  dsimp only [Cpu.set, Cpu.get] at h12 ⊢
  refine wp_adcx (fun v13 c13 h13 => ?_)
  dsimp only [Cpu.set, Cpu.get] at h13 ⊢
  refine wp_mulx (stkRead_frame [t0, z] P5 P4 P3 P2 P1 P0 N s0 s1 s2 s3 s4 s5).2.2.2.2.2.1 (fun l14 u14 h14 => ?_)
  dsimp only [Cpu.set, Cpu.get] at h14 ⊢
  have b14 := mul_hi h14 (u64_lt _) (u64_lt _)
  refine wp_adox (fun v15 c15 h15 => ?_)
  dsimp only [Cpu.set, Cpu.get] at h15 ⊢
  refine wp_adcx (fun v16 c16 h16 => ?_)
  dsimp only [Cpu.set, Cpu.get] at h16 ⊢
  refine wp_mulx (stkRead_frame [t0, z] P5 P4 P3 P2 P1 P0 N s0 s1 s2 s3 s4 s5).2.2.2.2.2.2 (fun l17 u17 h17 => ?_)
  dsimp only [Cpu.set, Cpu.get] at h17 ⊢
  have b17 := mul_hi61 h17 (u64_lt _) hP5
  refine wp_adox (fun v18 c18 h18 => ?_)
  dsimp only [Cpu.set, Cpu.get] at h18 ⊢
  refine wp_adcx (fun v19 c19 h19 => ?_)
  dsimp only [Cpu.set, Cpu.get] at h19 ⊢
  refine wp_adox (fun v20 c20 h20 => ?_)
  dsimp only [Cpu.set, Cpu.get] at h20 ⊢
  refine wp_adcx (fun v21 c21 h21 => ?_)
  dsimp only [Cpu.set, Cpu.get] at h21 ⊢
  obtain ⟨b21, z21⟩ := adc_small h21 (le_of_eq y3) (le_of_eq y3) (Bool.toNat_le _) (by norm_num)
  rw [z21, Nat.mul_zero, Nat.add_zero] at h21
  simp only [y3, zero_add, add_zero] at h21
  refine wp_mov rfl ?_
  dsimp only [Cpu.set, Cpu.get]
  refine wp_adox (fun v22 c22 h22 => ?_)
  dsimp only [Cpu.set, Cpu.get] at h22 ⊢
  obtain ⟨b22, z22⟩ := adc_small h22 b21 (le_of_eq UInt64.toNat_zero) (Bool.toNat_le _) (by norm_num)
  rw [z22, Nat.mul_zero, Nat.add_zero] at h22
  simp only [UInt64.toNat_zero, add_zero, zero_add] at h22
  refine wp_xor_self ?_
  dsimp only [Cpu.set]
  have key : 2 ^ 64 * v6.toNat + 2 ^ 128 * v9.toNat + 2 ^ 192 * v12.toNat + 2 ^ 256 * v15.toNat + 2 ^ 320 * v18.toNat + 2 ^ 384 * v20.toNat + 2 ^ 448 * v22.toNat = r10.toNat + 2 ^ 64 * r11.toNat + 2 ^ 128 * r12.toNat + 2 ^ 192 * r13.toNat + 2 ^ 256 * r14.toNat + 2 ^ 320 * r15.toNat + 2 ^ 384 * r9.toNat + 2 ^ 384 * rcx.toNat + l1.toNat * (P0.toNat + 2 ^ 64 * P1.toNat + 2 ^ 128 * P2.toNat + 2 ^ 192 * P3.toNat + 2 ^ 256 * P4.toNat + 2 ^ 320 * P5.toNat) := by
    linear_combination 2 ^ 448 * h22 + 2 ^ 448 * h21 + 2 ^ 384 * h20 + 2 ^ 384 * h19 + 2 ^ 320 * h18 + 2 ^ 320 * h17 + 2 ^ 320 * h16 + 2 ^ 256 * h15 + 2 ^ 256 * h14 + 2 ^ 256 * h13 + 2 ^ 192 * h12 + 2 ^ 192 * h11 + 2 ^ 192 * h10 + 2 ^ 128 * h9 + 2 ^ 128 * h8 + 2 ^ 128 * h7 + 2 ^ 64 * h6 + 2 ^ 64 * h5 + 2 ^ 64 * h4 + h3 + h2
  have keyb : v22.toNat ≤ 2 := by have := b22; omega
  exact H l1 v6 v9 v12 v15 u17 v18 v20 v22 key keyb

theorem mul_ex_mont5_wp {is : List Instr} {Q : Cpu → Prop}
    {rbx rcx rdx rsi rdi r8 r9 r10 r11 r12 r13 r14 r15 t0 z P5 P4 P3 P2 P1 P0 N s0 s1 s2 s3 s4 s5 : UInt64} {m : UInt64 → UInt64}
    (hN : (N.toNat * P0.toNat + 1) % 2 ^ 64 = 0)
    (hP5 : P5.toNat ≤ 2 ^ 61)
    (hcy : r10.toNat ≤ 2)
    (H : ∀ (l1 : UInt64) (v3 : UInt64) (v6 : UInt64) (v9 : UInt64) (v12 : UInt64) (v15 : UInt64) (l17 : UInt64) (u17 : UInt64) (v18 : UInt64) (c19 : Bool) (v20 : UInt64) (c20 : Bool), (2 ^ 64 * v6.toNat + 2 ^ 128 * v9.toNat + 2 ^ 192 * v12.toNat + 2 ^ 256 * v15.toNat + 2 ^ 320 * v18.toNat + 2 ^ 384 * v20.toNat + 2 ^ 448 * c20.toNat + 2 ^ 448 * c19.toNat = r11.toNat + 2 ^ 64 * r12.toNat + 2 ^ 128 * r13.toNat + 2 ^ 192 * r14.toNat + 2 ^ 256 * r15.toNat + 2 ^ 320 * rcx.toNat + 2 ^ 384 * r10.toNat + 2 ^ 384 * t0.toNat + l1.toNat * (P0.toNat + 2 ^ 64 * P1.toNat + 2 ^ 128 * P2.toNat + 2 ^ 192 * P3.toNat + 2 ^ 256 * P4.toNat + 2 ^ 320 * P5.toNat)) → wp is Q ⟨l17, v20, v18, l1, u17, rdi, 0xffffffffffffffc8, r8, r9, r10, v3, v6, v9, v12, v15, c19, c20, [z, P5, P4, P3, P2, P1, P0, N, s0, s1, s2, s3, s4, s5], m⟩) :
    wp (Asm.mul_ex_mont5 ++ is) Q ⟨0, rbx, rcx, rdx, rsi, rdi, 0xffffffffffffffc8, r8, r9, r10, r11, r12, r13, r14, r15, false, false, [t0, z, P5, P4, P3, P2, P1, P0, N, s0, s1, s2, s3, s4, s5], m⟩ := by
  simp only [Asm.mul_ex_mont5, List.cons_append, List.nil_append]
  refine wp_mov rfl ?_
  dsimp only [Cpu.set, Cpu.get]
  refine wp_mulx (stkRead_frame [t0, z] P5 P4 P3 P2 P1 P0 N s0 s1 s2 s3 s4 s5).1 (fun l1 u1 h1 => ?_)
  dsimp only [Cpu.set, Cpu.get] at h1 ⊢
  have b1 := mul_hi h1 (u64_lt _) (u64_lt _)
  refine wp_mulx (stkRead_frame [t0, z] P5 P4 P3 P2 P1 P0 N s0 s1 s2 s3 s4 s5).2.1 (fun l2 u2 h2 => ?_)
  dsimp only [Cpu.set, Cpu.get] at h2 ⊢
  have b2 := mul_hi h2 (u64_lt _) (u64_lt _)
  rw [Nat.mul_comm _ P0.toNat] at h2
  refine wp_adox (fun v3 c3 h3 => ?_)
  dsimp only [Cpu.set, Cpu.get] at h3 ⊢
  simp only [Bool.toNat_false, add_zero, zero_add] at h3
  have y3 := mont_low h1 h2 h3 (u64_lt _) hN
  rw [y3, Nat.zero_add] at h3
  refine wp_adcx (fun v4 c4 h4 => ?_)
  dsimp only [Cpu.set, Cpu.get] at h4 ⊢
  simp only [Bool.toNat_false, add_zero, zero_add] at h4
  refine wp_mulx (stkRead_frame [t0, z] P5 P4 P3 P2 P1 P0 N s0 s1 s2 s3 s4 s5).2.2.1 (fun l5 u5 h5 => ?_)
  dsimp only [Cpu.set, Cpu.get] at h5 ⊢
  have b5 := mul_hi h5 (u64_lt _) (u64_lt _)
  refine wp_adox (fun v6 c6 h6 => ?_)
  dsimp only [Cpu.set, Cpu.get] at h6 ⊢
  refine wp_adcx (fun v7 c7 h7 => ?_)
  dsimp only [Cpu.set, Cpu.get] at h7 ⊢
  refine wp_mulx (stkRead_frame [t0, z] P5 P4 P3 P2 P1 P0 N s0 s1 s2 s3 s4 s5).2.2.2.1 (fun l8 u8 h8 => ?_)
  dsimp only [Cpu.set, Cpu.get] at h8 ⊢
  have b8 := mul_hi h8 (u64_lt _) (u64_lt _)
  refine wp_adox (fun v9 c9 h9 => ?_)
  dsimp only [Cpu.set, Cpu.get] at h9 ⊢
  refine wp_adcx (fun v10 c10 h10 => ?_)
  dsimp only [Cpu.set, Cpu.get] at h10 ⊢
  refine wp_mulx (stkRead_frame [t0, z] P5 P4 P3 P2 P1 P0 N s0 s1 s2 s3 s4 s5).2.2.2.2.1 (fun l11 u11 h11 => ?_)
  dsimp only [Cpu.set, Cpu.get] at h11 ⊢
  have b11 := mul_hi h11 (u64_lt _) (u64_lt _)
  refine wp_adox (fun v12 c12 h12 => ?_)
  dsimp only [Cpu.set, Cpu.get] at h12 ⊢
  refine wp_adcx (fun v13 c13 h13 => ?_)
  dsimp only [Cpu.set, Cpu.get] at h13 ⊢
  refine wp_mulx (stkRead_frame [t0, z] P5 P4 P3 P2 P1 P0 N s0 s1 s2 s3 s4 s5).2.2.2.2.2.1 (fun l14 u14 h14 => ?_)
  dsimp only [Cpu.set, Cpu.get] at h14 ⊢
  have b14 := mul_hi h14 (u64_lt _) (u64_lt _)
  refine wp_adox (fun v15 c15 h15 => ?_)
  dsimp only [Cpu.set, Cpu.get] at h15 ⊢
  refine wp_adcx (fun v16 c16 h16 => ?_)
  dsimp only [Cpu.set, Cpu.get] at h16 ⊢
  refine wp_mulx (stkRead_frame [t0, z] P5 P4 P3 P2 P1 P0 N s0 s1 s2 s3 s4 s5).2.2.2.2.2.2 (fun l17 u17 h17 => ?_)
  dsimp only [Cpu.set, Cpu.get] at h17 ⊢
  have b17 := mul_hi61 h17 (u64_lt _) hP5
  refine wp_adox (fun v18 c18 h18 => ?_)
  dsimp only [Cpu.set, Cpu.get] at h18 ⊢
  refine wp_pop rfl ?_
  dsimp only [Cpu.set]
  refine wp_adcx (fun v19 c19 h19 => ?_)
  dsimp only [Cpu.set, Cpu.get] at h19 ⊢
  refine wp_adox (fun v20 c20 h20 => ?_)
  dsimp only [Cpu.set, Cpu.get] at h20 ⊢
  have key : 2 ^ 64 * v6.toNat + 2 ^ 128 * v9.toNat + 2 ^ 192 * v12.toNat + 2 ^ 256 * v15.toNat + 2 ^ 320 * v18.toNat + 2 ^ 384 * v20.toNat + 2 ^ 448 * c20.toNat + 2 ^ 448 * c19.toNat = r11.toNat + 2 ^ 64 * r12.toNat + 2 ^ 128 * r13.toNat + 2 ^ 192 * r14.toNat + 2 ^ 256 * r15.toNat + 2 ^ 320 * rcx.toNat + 2 ^ 384 * r10.toNat + 2 ^ 384 * t0.toNat + l1.toNat * (P0.toNat + 2 ^ 64 * P1.toNat + 2 ^ 128 * P2.toNat + 2 ^ 192 * P3.toNat + 2 ^ 256 * P4.toNat + 2 ^ 320 * P5.toNat) := by
    linear_combination 2 ^ 384 * h20 + 2 ^ 384 * h19 + 2 ^ 320 * h18 + 2 ^ 320 * h17 + 2 ^ 320 * h16 + 2 ^ 256 * h15 + 2 ^ 256 * h14 + 2 ^ 256 * h13 + 2 ^ 192 * h12 + 2 ^ 192 * h11 + 2 ^ 192 * h10 + 2 ^ 128 * h9 + 2 ^ 128 * h8 + 2 ^ 128 * h7 + 2 ^ 64 * h6 + 2 ^ 64 * h5 + 2 ^ 64 * h4 + h3 + h2
  exact H l1 v3 v6 v9 v12 v15 l17 u17 v18 c19 v20 c20 key

theorem mul_ex_red_wp {is : List Instr} {Q : Cpu → Prop}
    {rax rbx rcx rdx rsi rdi r8 r9 r10 r11 r12 r13 r14 r15 z P5 P4 P3 P2 P1 P0 N s0 s1 s2 s3 s4 s5 : UInt64} {cf of : Bool} {m : UInt64 → UInt64}
    (H : ∀ (v1 : UInt64) (v2 : UInt64) (v3 : UInt64) (v4 : UInt64) (v5 : UInt64) (v6 : UInt64) (c6 : Bool) (o6 : Bool), (v1.toNat + 2 ^ 64 * v2.toNat + 2 ^ 128 * v3.toNat + 2 ^ 192 * v4.toNat + 2 ^ 256 * v5.toNat + 2 ^ 320 * v6.toNat + (P0.toNat + 2 ^ 64 * P1.toNat + 2 ^ 128 * P2.toNat + 2 ^ 192 * P3.toNat + 2 ^ 256 * P4.toNat + 2 ^ 320 * P5.toNat) = r12.toNat + 2 ^ 64 * r13.toNat + 2 ^ 128 * r14.toNat + 2 ^ 192 * r15.toNat + 2 ^ 256 * rcx.toNat + 2 ^ 320 * rbx.toNat + 2 ^ 384 * c6.toNat) → wp is Q ⟨v1, rbx, rcx, rdx, v2, v3, 0xffffffffffffffc8, v4, v5, v6, r11, r12, r13, r14, r15, c6, o6, [z, P5, P4, P3, P2, P1, P0, N, s0, s1, s2, s3, s4, s5], m⟩) :
    wp (Asm.mul_ex_red ++ is) Q ⟨rax, rbx, rcx, rdx, rsi, rdi, 0xffffffffffffffc8, r8, r9, r10, r11, r12, r13, r14, r15, cf, of, [z, P5, P4, P3, P2, P1, P0, N, s0, s1, s2, s3, s4, s5], m⟩ := by
  simp only [Asm.mul_ex_red, List.cons_append, List.nil_append]
  refine wp_mov rfl ?_
  dsimp only [Cpu.set, Cpu.get]
  refine wp_sub (stkRead_frame [z] P5 P4 P3 P2 P1 P0 N s0 s1 s2 s3 s4 s5).2.1 (fun v1 c1 o1 h1 => ?_)
  dsimp only [Cpu.set, Cpu.get] at h1 ⊢
  refine wp_mov rfl ?_
  dsimp only [Cpu.set, Cpu.get]
  refine wp_sbb (stkRead_frame [z] P5 P4 P3 P2 P1 P0 N s0 s1 s2 s3 s4 s5).2.2.1 (fun v2 c2 o2 h2 => ?_)
  dsimp only [Cpu.set, Cpu.get] at h2 ⊢
  refine wp_mov rfl ?_
  dsimp only [Cpu.set, Cpu.get]
  refine wp_sbb (stkRead_frame [z] P5 P4 P3 P2 P1 P0 N s0 s1 s2 s3 s4 s5).2.2.2.1 (fun v3 c3 o3 h3 => ?_)
  dsimp only [Cpu.set, Cpu.get] at h3 ⊢
  refine wp_mov rfl ?_
  dsimp only [Cpu.set, Cpu.get]
  refine wp_sbb (stkRead_frame [z] P5 P4 P3 P2 P1 P0 N s0 s1 s2 s3 s4 s5).2.2.2.2.1 (fun v4 c4 o4 h4 => ?_)
  dsimp only [Cpu.set, Cpu.get] at h4 ⊢
  refine wp_mov rfl ?_
  dsimp only [Cpu.set, Cpu.get]
  refine wp_sbb (stkRead_frame [z] P5 P4 P3 P2 P1 P0 N s0 s1 s2 s3 s4 s5).2.2.2.2.2.1 (fun v5 c5 o5 h5 => ?_)
  dsimp only [Cpu.set, Cpu.get] at h5 ⊢
  refine wp_mov rfl ?_
  dsimp only [Cpu.set, Cpu.get]
  refine wp_sbb (stkRead_frame [z] P5 P4 P3 P2 P1 P0 N s0 s1 s2 s3 s4 s5).2.2.2.2.2.2 (fun v6 c6 o6 h6 => ?_)
  dsimp only [Cpu.set, Cpu.get] at h6 ⊢
  have key : v1.toNat + 2 ^ 64 * v2.toNat + 2 ^ 128 * v3.toNat + 2 ^ 192 * v4.toNat + 2 ^ 256 * v5.toNat + 2 ^ 320 * v6.toNat + (P0.toNat + 2 ^ 64 * P1.toNat + 2 ^ 128 * P2.toNat + 2 ^ 192 * P3.toNat + 2 ^ 256 * P4.toNat + 2 ^ 320 * P5.toNat) = r12.toNat + 2 ^ 64 * r13.toNat + 2 ^ 128 * r14.toNat + 2 ^ 192 * r15.toNat + 2 ^ 256 * rcx.toNat + 2 ^ 320 * rbx.toNat + 2 ^ 384 * c6.toNat := by
    linear_combination h1 + 2 ^ 64 * h2 + 2 ^ 128 * h3 + 2 ^ 192 * h4 + 2 ^ 256 * h5 + 2 ^ 320 * h6
  exact H v1 v2 v3 v4 v5 v6 c6 o6 key

theorem mul_ex_out_wp {is : List Instr} {Q : Cpu → Prop}
    {rax rbx rcx rdx rsi rdi r8 r9 r10 r11 r12 r13 r14 r15 z P5 P4 P3 P2 P1 P0 N s0 s1 s2 s3 s4 s5 : UInt64} {cf of : Bool} {m : UInt64 → UInt64}
    (H : wp is Q ⟨N, s0, (bif cf then rcx else r9), rdx, rsi, rdi, s5, r8, r9, r10, z, s1, s2, s3, s4, cf, of, [], (memSet (memSet (memSet (memSet (memSet (memSet m (z + 0) ((bif cf then r12 else rax))) (z + 8) ((bif cf then r13 else rsi))) (z + 0x10) ((bif cf then r14 else rdi))) (z + 0x18) ((bif cf then r15 else r8))) (z + 0x20) ((bif cf then rcx else r9))) (z + 0x28) ((bif cf then rbx else r10)))⟩) :
    wp (Asm.mul_ex_out ++ is) Q ⟨rax, rbx, rcx, rdx, rsi, rdi, 0xffffffffffffffc8, r8, r9, r10, r11, r12, r13, r14, r15, cf, of, [z, P5, P4, P3, P2, P1, P0, N, s0, s1, s2, s3, s4, s5], m⟩ := by
  simp only [Asm.mul_ex_out, List.cons_append, List.nil_append]
  refine wp_pop rfl ?_
  dsimp only [Cpu.set]
  refine wp_cmovae ?_
  dsimp only [Cpu.set, Cpu.get]
  refine wp_store ?_
  dsimp only [Cpu.get]
  refine wp_cmovae ?_
  dsimp only [Cpu.set, Cpu.get]
  refine wp_store ?_
  dsimp only [Cpu.get]
  refine wp_cmovae ?_
  dsimp only [Cpu.set, Cpu.get]
  refine wp_store ?_
  dsimp only [Cpu.get]
  refine wp_cmovae ?_
  dsimp only [Cpu.set, Cpu.get]
  refine wp_store ?_
  dsimp only [Cpu.get]
  refine wp_cmovae ?_
  dsimp only [Cpu.set, Cpu.get]
  refine wp_store ?_
  dsimp only [Cpu.get]
  refine wp_cmovae ?_
  dsimp only [Cpu.set, Cpu.get]
  refine wp_store ?_
  dsimp only [Cpu.get]
  refine wp_pop rfl ?_
  dsimp only [Cpu.set]
  refine wp_pop rfl ?_
  dsimp only [Cpu.set]
  refine wp_pop rfl ?_
  dsimp only [Cpu.set]
  refine wp_pop rfl ?_
  dsimp only [Cpu.set]
  refine wp_pop rfl ?_
  dsimp only [Cpu.set]
  refine wp_pop rfl ?_
  dsimp only [Cpu.set]
  refine wp_pop rfl ?_
  dsimp only [Cpu.set]
  refine wp_pop rfl ?_
  dsimp only [Cpu.set]
  refine wp_pop rfl ?_
  dsimp only [Cpu.set]
  refine wp_pop rfl ?_
  dsimp only [Cpu.set]
  refine wp_pop rfl ?_
  dsimp only [Cpu.set]
  refine wp_pop rfl ?_
  dsimp only [Cpu.set]
  refine wp_pop rfl ?_
  dsimp only [Cpu.set]
  refine wp_ret rfl ?_
  exact H  

/-- `mul_ex` computes the Montgomery product of the words the two pointers point to before the call,
stores it through the destination pointer, and restores the callee-saved registers. -/
theorem mul_ex_wp : Computes Asm.mul_ex (fun x y => redc (x * y)) := by
  intro s hs
  obtain ⟨rax, rbx, rcx, rdx, rsi, rdi, rbp, r8, r9, r10, r11, r12, r13, r14, r15, cf, of, stk, m⟩ := s
  dsimp only at hs ⊢
  subst hs
  unfold Asm.mul_ex
  rw [← List.append_nil Asm.mul_ex_out]
  refine mul_ex_pre_wp  ?_
  refine mul_ex_row0_wp  (fun l1_1 v3_1 v5_1 v7_1 v9_1 l10_1 v11_1 v12_1 c12_1 o12_1 E1 => ?_)
  refine mul_ex_row1_wp  (fun v2_2 v5_2 v8_2 v11_2 v14_2 l16_2 u16_2 v17_2 c18_2 v19_2 c19_2 E2 => ?_)
  refine mul_ex_row2_wp  (fun v2_3 v5_3 v8_3 v11_3 v14_3 l16_3 u16_3 v17_3 c18_3 v19_3 c19_3 E3 => ?_)
  refine mul_ex_row3_wp  (fun v2_4 v5_4 v8_4 v11_4 v14_4 l16_4 u16_4 v17_4 c18_4 v19_4 c19_4 E4 => ?_)
  refine mul_ex_row4_wp  (fun v2_5 v5_5 v8_5 v11_5 v14_5 l16_5 u16_5 v17_5 c18_5 v19_5 c19_5 E5 => ?_)
  refine mul_ex_row5_wp  (fun v2_6 v5_6 v8_6 v11_6 v14_6 l16_6 v17_6 v19_6 c19_6 o19_6 E6 => ?_)
  refine mul_ex_load_wp  ?_
  refine mul_ex_mont0_wp hN0 hP50 (fun l1_8 v6_8 v9_8 v12_8 v15_8 u17_8 v18_8 v20_8 v22_8 M8 B8 => ?_)
  refine mul_ex_mont1_wp hN0 hP50 B8 (fun l1_9 v6_9 v9_9 v12_9 v15_9 u17_9 v18_9 v20_9 v22_9 M9 B9 => ?_)
  refine mul_ex_mont2_wp hN0 hP50 B9 (fun l1_10 v6_10 v9_10 v12_10 v15_10 u17_10 v18_10 v20_10 v22_10 M10 B10 => ?_)
  refine mul_ex_mont3_wp hN0 hP50 B10 (fun l1_11 v6_11 v9_11 v12_11 v15_11 u17_11 v18_11 v20_11 v22_11 M11 B11 => ?_)
  refine mul_ex_mont4_wp hN0 hP50 B11 (fun l1_12 v6_12 v9_12 v12_12 v15_12 u17_12 v18_12 v20_12 v22_12 M12 B12 => ?_)
  refine mul_ex_mont5_wp hN0 hP50 B12 (fun l1_13 v3_13 v6_13 v9_13 v12_13 v15_13 l17_13 u17_13 v18_13 c19_13 v20_13 c20_13 M13 => ?_)
  refine mul_ex_red_wp  (fun v1_14 v2_14 v3_14 v4_14 v5_14 v6_14 c6_14 o6_14 S14 => ?_)
  refine mul_ex_out_wp  ?_
  rw [readFp_val, readFp_val]
  have key : 2 ^ 384 * (v6_13.toNat + 2 ^ 64 * v9_13.toNat + 2 ^ 128 * v12_13.toNat + 2 ^ 192 * v15_13.toNat + 2 ^ 256 * v18_13.toNat + 2 ^ 320 * v20_13.toNat) + 2 ^ 768 * (c20_13.toNat + c19_13.toNat) =
      ((m (rsi + 0)).toNat + 2 ^ 64 * (m (rsi + 8)).toNat + 2 ^ 128 * (m (rsi + 0x10)).toNat + 2 ^ 192 * (m (rsi + 0x18)).toNat + 2 ^ 256 * (m (rsi + 0x20)).toNat + 2 ^ 320 * (m (rsi + 0x28)).toNat) * ((m (rdx + 0)).toNat + 2 ^ 64 * (m (rdx + 8)).toNat + 2 ^ 128 * (m (rdx + 0x10)).toNat + 2 ^ 192 * (m (rdx + 0x18)).toNat + 2 ^ 256 * (m (rdx + 0x20)).toNat + 2 ^ 320 * (m (rdx + 0x28)).toNat) + (l1_8.toNat + 2 ^ 64 * l1_9.toNat + 2 ^ 128 * l1_10.toNat + 2 ^ 192 * l1_11.toNat + 2 ^ 256 * l1_12.toNat + 2 ^ 320 * l1_13.toNat) * ((0xb9feffffffffaaab : UInt64).toNat + 2 ^ 64 * (0x1eabfffeb153ffff : UInt64).toNat + 2 ^ 128 * (0x6730d2a0f6b0f624 : UInt64).toNat + 2 ^ 192 * (0x64774b84f38512bf : UInt64).toNat + 2 ^ 256 * (0x4b1ba7b6434bacd7 : UInt64).toNat + 2 ^ 320 * (0x1a0111ea397fe69a : UInt64).toNat) := by
    linear_combination E1 + 2 ^ 64 * E2 + 2 ^ 128 * E3 + 2 ^ 192 * E4 + 2 ^ 256 * E5 + 2 ^ 320 * E6 + M8 + 2 ^ 64 * M9 + 2 ^ 128 * M10 + 2 ^ 192 * M11 + 2 ^ 256 * M12 + 2 ^ 320 * M13
  have hend := mont_end (P := _) modulus_sum key (u6_lt (l1_8) (l1_9) (l1_10) (l1_11) (l1_12) (l1_13)) (u6_lt (v6_13) (v9_13) (v12_13) (v15_13) (v18_13) (v20_13)) (u6_lt (v1_14) (v2_14) (v3_14) (v4_14) (v5_14) (v6_14)) S14 (Bool.toNat_le _)
  refine wp_nil ⟨⟨bif c6_14 then v6_13 else v1_14, bif c6_14 then v9_13 else v2_14, bif c6_14 then v12_13 else v3_14, bif c6_14 then v15_13 else v4_14, bif c6_14 then v18_13 else v5_14, bif c6_14 then v20_13 else v6_14⟩, ?_, rfl, rfl, rfl, rfl, rfl, rfl, rfl, rfl⟩
  rw [Fp.val_flat]
  cases c6_14
  · simpa using hend
  · simpa using hend

end Bls.X86
