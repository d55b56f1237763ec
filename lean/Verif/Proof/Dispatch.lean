import Verif.Model.Dispatch
import Verif.Spec.Process
import Verif.Proof.Bytes

/-!
# The resolver of `_multiply`
-/

namespace Bls.Dispatch

open Process

theorem and_bit (x : UInt32) (k : ℕ) (hk : k < 32) :
    (x &&& ((1 : UInt32) <<< UInt32.ofNat k) != 0) = x.toNat.testBit k := by
  have hs : ((1 : UInt32) <<< UInt32.ofNat k).toNat = 2 ^ k := by
    rw [UInt32.toNat_shiftLeft, UInt32.toNat_ofNat', Nat.mod_eq_of_lt (show k < 2 ^ 32 by omega), Nat.mod_eq_of_lt hk,
      UInt32.toNat_one, Nat.shiftLeft_eq, one_mul, Nat.mod_eq_of_lt (Nat.pow_lt_pow_right (by norm_num) hk)]
  have h : (x &&& ((1 : UInt32) <<< UInt32.ofNat k)).toNat = 2 ^ k * (x.toNat.testBit k).toNat := by
    rw [UInt32.toNat_and, hs]
    apply Nat.eq_of_testBit_eq
    intro i
    rw [Nat.testBit_and, Nat.testBit_two_pow]
    rcases h : x.toNat.testBit k
    · rw [Bool.toNat_false, mul_zero, Nat.zero_testBit]
      by_cases e : k = i
      · subst e; rw [h]; rfl
      · simp [e]
    · rw [Bool.toNat_true, mul_one, Nat.testBit_two_pow]
      by_cases e : k = i
      · subst e; simp [h]
      · simp [e]
  have e : ((x &&& ((1 : UInt32) <<< UInt32.ofNat k)) = 0) ↔ x.toNat.testBit k = false := by
    rw [← UInt32.toNat_inj, h, UInt32.toNat_zero]
    rcases x.toNat.testBit k <;> simp
  rcases hb : x.toNat.testBit k
  · rw [e.2 hb]; rfl
  · have : (x &&& ((1 : UInt32) <<< UInt32.ofNat k)) ≠ 0 := fun he => by simp [e.1 he] at hb
    simpa using this

theorem seven_le (x : UInt32) : (7 : Int32) ≤ x.toInt32 ↔ 7 ≤ x.toNat ∧ x.toNat < 2 ^ 31 := by
  rw [Int32.le_iff_toInt_le]
  have h : x.toInt32.toInt = (x.toNat : Int).bmod (2 ^ 32) := BitVec.toInt_eq_toNat_bmod _
  have h7 : (7 : Int32).toInt = 7 := rfl
  have hx := x.toNat_lt
  rw [h, h7, Int.bmod_def]
  generalize x.toNat = n at *
  split <;> omega

theorem cpuHas_iff (c : Cpuid) : cpuHas c = true ↔
    (announced c).bmi2 = true ∧ (announced c).adx = true ∧ (c 0 0).1.toNat < 2 ^ 31 := by
  have h8 := and_bit (c 7 0).2.1 8 (by norm_num)
  have h19 := and_bit (c 7 0).2.1 19 (by norm_num)
  change ((c 7 0).2.1 &&& ((1 : UInt32) <<< 8) != 0) = _ at h8
  change ((c 7 0).2.1 &&& ((1 : UInt32) <<< 19) != 0) = _ at h19
  unfold cpuHas announced
  simp only [seven_le, h8, h19]
  split
  · rename_i h; simp only [h.1, h.2, Bool.and_eq_true, decide_true, Bool.true_and, and_true]
  · rename_i h
    simp only [Bool.false_eq_true, Bool.and_eq_true, decide_eq_true_eq, false_iff]
    tauto

theorem load64_eq {mem : Memory} {a v : UInt64} (h : Bytes mem a (littleEndian v.toNat 8)) : load64 mem a = v := by
  have g : ∀ i (hi : i < 8), mem (a + UInt64.ofNat i) = UInt8.ofNat (v.toNat / 256 ^ i) := by
    intro i hi
    have := h i (by simpa [littleEndian] using hi)
    rw [this]
    simp [littleEndian]
  have g0 := g 0 (by norm_num)
  have g1 := g 1 (by norm_num)
  have g2 := g 2 (by norm_num)
  have g3 := g 3 (by norm_num)
  have g4 := g 4 (by norm_num)
  have g5 := g 5 (by norm_num)
  have g6 := g 6 (by norm_num)
  have g7 := g 7 (by norm_num)
  have e0 : mem a = UInt8.ofNat (v.toNat / 256 ^ 0) := by
    rw [← g0]; congr 1; exact (UInt64.add_zero a).symm
  change mem (a + 1) = _ at g1
  change mem (a + 2) = _ at g2
  change mem (a + 3) = _ at g3
  change mem (a + 4) = _ at g4
  change mem (a + 5) = _ at g5
  change mem (a + 6) = _ at g6
  change mem (a + 7) = _ at g7
  have hv := v.toNat_lt
  apply UInt64.toNat_inj.1
  rw [load64, Scalar.leWord_toNat, e0, g1, g2, g3, g4, g5, g6, g7]
  simp only [leVal, UInt8.toNat_ofNat']
  generalize v.toNat = n at *
  norm_num
  omega

theorem or_shift32 (a : UInt32) (b : UInt8) (k : UInt32) (hk : k.toNat ≤ 24) (ha : a.toNat < 2 ^ k.toNat) :
    (a ||| b.toUInt32 <<< k).toNat = a.toNat + 2 ^ k.toNat * b.toNat ∧
    (a ||| b.toUInt32 <<< k).toNat < 2 ^ (k.toNat + 8) := by
  have hb : b.toNat < 256 := b.toNat_lt
  have hs : (b.toUInt32 <<< k).toNat = b.toNat <<< k.toNat := by
    rw [UInt32.toNat_shiftLeft, Nat.mod_eq_of_lt (show k.toNat < 32 by omega), UInt8.toNat_toUInt32,
      Nat.mod_eq_of_lt]
    rw [Nat.shiftLeft_eq]
    calc b.toNat * 2 ^ k.toNat < 256 * 2 ^ k.toNat := Nat.mul_lt_mul_of_pos_right hb (by positivity)
      _ ≤ 256 * 2 ^ 24 := Nat.mul_le_mul_left _ (Nat.pow_le_pow_right (by norm_num) hk)
      _ = 2 ^ 32 := by norm_num
  have e : (a ||| b.toUInt32 <<< k).toNat = a.toNat + 2 ^ k.toNat * b.toNat := by
    rw [UInt32.toNat_or, hs, Nat.or_comm, ← Nat.shiftLeft_add_eq_or_of_lt ha, Nat.shiftLeft_eq]; ring
  refine ⟨e, ?_⟩
  rw [e, pow_add]
  have : 2 ^ k.toNat * b.toNat ≤ 2 ^ k.toNat * 255 := Nat.mul_le_mul_left _ (by omega)
  omega

theorem load32_eq {mem : Memory} {a : UInt64} {n : ℕ} (hn : n < 2 ^ 31) (h : Bytes mem a (littleEndian n 8)) :
    (load32 mem a).toInt64.toUInt64 = UInt64.ofNat n := by
  have g : ∀ i (hi : i < 8), mem (a + UInt64.ofNat i) = UInt8.ofNat (n / 256 ^ i) := by
    intro i hi
    have := h i (by simpa [littleEndian] using hi)
    rw [this]
    simp [littleEndian]
  have g0 := g 0 (by norm_num)
  have g1 := g 1 (by norm_num)
  have g2 := g 2 (by norm_num)
  have g3 := g 3 (by norm_num)
  have e0 : mem a = UInt8.ofNat (n / 256 ^ 0) := by
    rw [← g0]; congr 1; exact (UInt64.add_zero a).symm
  change mem (a + 1) = _ at g1
  change mem (a + 2) = _ at g2
  change mem (a + 3) = _ at g3
  have key : ((mem a).toUInt32 ||| (mem (a + 1)).toUInt32 <<< 8 ||| (mem (a + 2)).toUInt32 <<< 16 |||
      (mem (a + 3)).toUInt32 <<< 24) = UInt32.ofNat n := by
    have h0 : (mem a).toUInt32.toNat < 2 ^ (8 : UInt32).toNat := by
      rw [UInt8.toNat_toUInt32]; exact (mem a).toNat_lt
    obtain ⟨e1, h1⟩ := or_shift32 (mem a).toUInt32 (mem (a + 1)) 8 (by decide) h0
    obtain ⟨e2, h2⟩ := or_shift32 _ (mem (a + 2)) 16 (by decide) h1
    obtain ⟨e3, -⟩ := or_shift32 _ (mem (a + 3)) 24 (by decide) h2
    apply UInt32.toNat_inj.1
    rw [e3, e2, e1, UInt8.toNat_toUInt32, e0, g1, g2, g3]
    simp only [UInt8.toNat_ofNat', UInt32.toNat_ofNat', UInt32.reduceToNat]
    norm_num
    omega
  rw [load32, key]
  apply UInt64.toBitVec_inj.1
  change BitVec.signExtend 64 (BitVec.ofNat 32 n) = BitVec.ofNat 64 n
  rw [BitVec.signExtend_eq_setWidth_of_msb_false]
  · apply BitVec.eq_of_toNat_eq
    rw [BitVec.toNat_setWidth, BitVec.toNat_ofNat, BitVec.toNat_ofNat]
    omega
  · rw [BitVec.msb_eq_decide, BitVec.toNat_ofNat]
    simp
    omega

theorem strncmpEq_iff (mem : Memory) (lit s : List UInt8) (a : UInt64) (hl : 0 ∉ lit) (hs : 0 ∉ s)
    (h : Bytes mem a (s ++ [0])) : strncmpEq mem a lit lit.length = true ↔ lit <+: s := by
  induction lit generalizing s a with
  | nil => simp [strncmpEq]
  | cons c cs ih =>
    have hc : c ≠ 0 := fun e => hl (by simp [e])
    have h0 : mem a = (s ++ [0])[0]'(by simp) := by
      rw [← h 0 (by simp)]; congr 1; exact (UInt64.add_zero a).symm
    rw [List.length_cons, strncmpEq]
    cases s with
    | nil =>
      have : mem a = 0 := h0
      simp [this, hc.symm]
    | cons t ts =>
      have h0 : mem a = t := h0
      rw [h0, List.cons_prefix_cons]
      by_cases e : t = c
      · subst e
        simp only [bne_self_eq_false, Bool.false_eq_true, if_false, beq_iff_eq, hc, true_and]
        refine ih ts (a + 1) (fun m => hl (List.mem_cons_of_mem _ m)) (fun m => hs (List.mem_cons_of_mem _ m)) ?_
        intro i hi
        have := h (i + 1) (by simpa using hi)
        rw [show a + 1 + UInt64.ofNat i = a + UInt64.ofNat (i + 1) by
          rw [UInt64.ofNat_add, UInt64.add_assoc, UInt64.add_comm 1]; rfl, this]
        simp
      · simp [e, Ne.symm e]

theorem table_tail {mem : Memory} {a : UInt64} {s : List UInt8} {ss : List (List UInt8)} (h : Table mem a (s :: ss)) :
    Table mem (a + 8) ss := by
  have e : ∀ i, a + 8 + 8 * UInt64.ofNat i = a + 8 * UInt64.ofNat (i + 1) := fun i => by
    rw [UInt64.ofNat_add, UInt64.mul_add, UInt64.add_assoc, UInt64.add_comm 8]; rfl
  refine ⟨fun i hi => ?_, ?_⟩
  · obtain ⟨q, h0, h1, h2, h3⟩ := h.1 (i + 1) (by simpa using hi)
    exact ⟨q, h0, by rw [e]; exact h1, h2, h3⟩
  · rw [e]; exact h.2

theorem envLoop_eq (mem : Memory) (ss : List (List UInt8)) (a : UInt64) (fuel : ℕ) (hf : ss.length < fuel)
    (h : Table mem a ss) : envLoop mem fuel a = some (decide (∃ s ∈ ss, disableStr <+: s)) := by
  induction ss generalizing a fuel with
  | nil =>
    obtain ⟨f, rfl⟩ := Nat.exists_eq_add_of_lt hf
    have : load64 mem a = 0 := load64_eq (v := 0) (by
      have := h.2
      rwa [show a + 8 * UInt64.ofNat ([] : List (List UInt8)).length = a by
        change a + 8 * 0 = a; rw [UInt64.mul_zero, UInt64.add_zero]] at this)
    rw [List.length_nil, zero_add, envLoop, this]
    simp
  | cons s ss ih =>
    obtain ⟨f, rfl⟩ := Nat.exists_eq_add_of_lt hf
    obtain ⟨q, h0, h1, h2, h3⟩ := h.1 0 (by simp)
    rw [show a + 8 * UInt64.ofNat 0 = a by change a + 8 * 0 = a; rw [UInt64.mul_zero, UInt64.add_zero]] at h1
    have hq := load64_eq h1
    have hm := strncmpEq_iff mem disableStr s q (by decide) h2 h3
    rw [envLoop, hq]
    have hne : (q != 0) = true := by simpa using h0
    rw [if_pos hne]
    by_cases hp : disableStr <+: s
    · rw [if_pos (hm.2 hp)]
      simp [hp]
    · rw [if_neg (fun e => hp (hm.1 e)), ih _ _ (by rw [List.length_cons]; omega) (table_tail h)]
      simp [hp]

theorem resolve_eq {fuel : ℕ} {c : Cpuid} {mem : Memory} {argv : UInt64} {args env : List (List UInt8)}
    (hs : Stack mem argv args env) (hf : env.length < fuel) :
    resolve fuel c mem argv = some (!decide (∃ s ∈ env, disableStr <+: s) && cpuHas c) := by
  have ha := load32_eq hs.few hs.count
  have he := hs.environment
  rw [show argv + 8 * UInt64.ofNat (args.length + 1) = argv + 8 * UInt64.ofNat args.length + 8 by
    rw [UInt64.ofNat_add, UInt64.mul_add, ← UInt64.add_assoc]; rfl] at he
  unfold resolve
  simp only [ha, envLoop_eq mem env _ fuel hf he, Option.map_some]
  by_cases h : ∃ s ∈ env, disableStr <+: s <;> simp [h]

theorem run_eq {f : Features} {code : List X86.Instr} (h : code.all f.has = true) (s : X86.Cpu) :
    Process.run f code s = X86.run code s := by
  induction code generalizing s with
  | nil => rfl
  | cons i is ih =>
    rw [List.all_cons, Bool.and_eq_true] at h
    rw [Process.run, X86.run, if_pos h.1]
    congr 1
    funext t
    exact ih h.2 t

theorem run_none {f : Features} {code : List X86.Instr} (h : code.all f.has = false) (s : X86.Cpu) :
    Process.run f code s = none := by
  induction code generalizing s with
  | nil => simp at h
  | cons i is ih =>
    rw [Process.run]
    split
    · rename_i hi
      rw [List.all_cons, hi, Bool.true_and] at h
      cases X86.step i s with
      | none => rfl
      | some t => exact ih h t
    · rfl

theorem mul_ex_has (f : Features) : X86.Asm.mul_ex.all f.has = (f.bmi2 && f.adx) := by
  obtain ⟨a, b⟩ := f
  revert a b
  decide +kernel

theorem base_has (f : Features) (code : List X86.Instr)
    (hc : code ∈ [X86.Asm.add, X86.Asm.ladd, X86.Asm.double, X86.Asm.ldouble, X86.Asm.subtract,
      X86.Asm.lsubtract, X86.Asm.negate, X86.Asm.multiply]) : code.all f.has = true := by
  have h : ∀ a b, ([X86.Asm.add, X86.Asm.ladd, X86.Asm.double, X86.Asm.ldouble, X86.Asm.subtract,
      X86.Asm.lsubtract, X86.Asm.negate, X86.Asm.multiply].all fun c => c.all (Features.mk a b).has) = true := by
    decide +kernel
  exact List.all_eq_true.1 (h f.bmi2 f.adx) code hc

end Bls.Dispatch
