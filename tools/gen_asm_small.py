#!/usr/bin/env python3
"""Generate Verif/Proof/AsmSmall.lean: symbolic execution of the short routines of src/arithmetic.s."""
import re
src=open('/verif/lean/Verif/Model/AsmCode.lean').read()
def code(n):
    m=re.search(r'def %s : List Instr := \[(.*?)\]\n'%n,src,re.S)
    return [l.strip().rstrip(',') for l in m.group(1).strip().split('\n')]
out=['''import Verif.Proof.X86Mont

/-! Symbolic execution of the short routines of `src/arithmetic.s`. Generated by
`tools/gen_asm_small.py`; every step is checked by Lean. -/

namespace Bls.X86

set_option exponentiation.threshold 1000
set_option linter.unusedVariables false
set_option linter.unusedSimpArgs false
''']
def gen(n,doc,f,fin):
    o=[f'/-- {doc} -/',f'theorem {n}_wp : Computes Asm.{n} (fun x y => {f}) := by','  intro s hs',
'  obtain ⟨rax, rbx, rcx, rdx, rsi, rdi, rbp, r8, r9, r10, r11, r12, r13, r14, r15, cf, of, stk, m⟩ := s',
'  dsimp only at hs ⊢','  subst hs',f'  unfold Asm.{n}']
    k=0; vs=[]
    for i in code(n):
        op=i.split()[0][1:]
        if op=='push': o.append('  refine wp_push ?_; dsimp only [Cpu.get]')
        elif op=='mov': o.append('  refine wp_mov rfl ?_; dsimp only [Cpu.set, Cpu.get]')
        elif op=='store': o.append('  refine wp_store ?_; dsimp only [Cpu.get]')
        elif op=='pop': o.append('  refine wp_pop rfl ?_; dsimp only [Cpu.set]')
        elif op=='ret': o.append('  refine wp_ret rfl ?_')
        elif op=='cmovae': o.append('  refine wp_cmovae ?_; dsimp only [Cpu.set, Cpu.get]')
        elif op=='xor': o.append('  refine wp_xor_self ?_; dsimp only [Cpu.set]')
        elif op in('add','adc','sub','sbb'):
            k+=1
            o.append(f'  refine wp_{op} rfl (fun v{k} c{k} o{k} h{k} => ?_); dsimp only [Cpu.set, Cpu.get] at h{k} ⊢')
        else: raise Exception(i)
    o.append(fin)
    out.extend(o); out.append('')
def V(i): return ' + '.join([f'v{i}.toNat']+[f'2 ^ {64*j} * v{i+j}.toNat' for j in range(1,6)])
def u6(i): return 'u6_lt '+' '.join(f'v{i+j}' for j in range(6))
def L(w): return [w%(8*j) for j in range(6)]
hx=['0','8','0x10','0x18','0x20','0x28']
def val(r): return ' + '.join([f'(m ({r} + 0)).toNat']+[f'2 ^ {64*j} * (m ({r} + {hx[j]})).toNat' for j in range(1,6)])
def comb(i): return ' + '.join([f'h{i}']+[f'2 ^ {64*j} * h{i+j}' for j in range(1,6)])
P=['0xb9feffffffffaaab','0x1eabfffeb153ffff','0x6730d2a0f6b0f624','0x64774b84f38512bf','0x4b1ba7b6434bacd7','0x1a0111ea397fe69a']
Pv=' + '.join([f'({P[0]} : UInt64).toNat']+[f'2 ^ {64*j} * ({P[j]} : UInt64).toNat' for j in range(1,6)])
um=lambda r:'u6_lt '+' '.join(f'(m ({r} + {h}))' for h in hx)
rfls=', '.join(['rfl']*8)
def start(two):
    return '  rw [readFp_val, readFp_val]\n' if two else '  rw [readFp_val]\n'
def addlike(Y):
    return f'''  have k1 : {V(1)} + 2 ^ 384 * c6.toNat = ({val('rsi')}) + ({val(Y)}) := by
    linear_combination {comb(1)}
  have k2 : {V(7)} + ({Pv}) = {V(1)} + 2 ^ 384 * c12.toNat := by
    linear_combination {comb(7)}
  rw [modulus_sum] at k2
  have b1 := {u6(1)}
  have b2 := {u6(7)}
  have hp := p_lt
  refine wp_nil ⟨⟨{', '.join(f'bif c12 then v{1+j} else v{7+j}' for j in range(6))}⟩, ?_, {rfls}⟩
  rw [Fp.val_flat]
  simp only [readFp_val]
  rw [← k1, Nat.add_mul_mod_self_left, Nat.mod_eq_of_lt b1, csub]
  cases c12
  · simp only [cond_false, Bool.toNat_false] at k2 ⊢
    rw [if_neg (by omega)]; omega
  · simp only [cond_true, Bool.toNat_true] at k2 ⊢
    rw [if_pos (by omega)]'''
def laddlike(Y):
    return f'''  have k1 : {V(1)} + 2 ^ 384 * c6.toNat = ({val('rsi')}) + ({val(Y)}) := by
    linear_combination {comb(1)}
  have b1 := {u6(1)}
  refine wp_nil ⟨⟨v1, v2, v3, v4, v5, v6⟩, ?_, {rfls}⟩
  rw [Fp.val_flat]
  simp only [readFp_val]
  rw [← k1, Nat.add_mul_mod_self_left, Nat.mod_eq_of_lt b1]'''
gen('add','`_add`: the sum, reduced once.','csub ((x + y) % 2 ^ 384)',addlike('rdx'))
gen('double','`_double`: the double, reduced once.','csub ((x + x) % 2 ^ 384)',addlike('rsi'))
gen('ladd','`_ladd`: the sum without reduction.','(x + y) % 2 ^ 384',laddlike('rdx'))
gen('ldouble','`_ldouble`: the double without reduction.','(x + x) % 2 ^ 384',laddlike('rsi'))
def sublike(X,Xv,Y):
    return f'''  have k1 : {V(1)} + ({val(Y)}) = ({X}) + 2 ^ 384 * c6.toNat := by
    linear_combination {comb(1)}
  have b1 := {u6(1)}
  have bx := {Xv}
  have by' := {um(Y)}
'''
gen('subtract','`_subtract`: the difference, plus the modulus on a borrow.','if y ≤ x then x - y else (x + 2 ^ 384 - y + p) % 2 ^ 384',
 sublike(val('rsi'),um('rsi'),'rdx')+f'''  refine wp_nil ⟨⟨v7, v8, v9, v10, v11, v12⟩, ?_, {rfls}⟩
  rw [Fp.val_flat]
  simp only [readFp_val]
  have b2 := {u6(7)}
  cases c6
  · have k2 : {V(7)} + 2 ^ 384 * c12.toNat = {V(1)} := by
      simp only [cond_false, UInt64.toNat_zero] at h7 h8 h9 h10 h11 h12
      linear_combination {comb(7)}
    simp only [Bool.toNat_false] at k1
    have := Bool.toNat_le c12
    rw [if_pos (by omega)]; omega
  · have k2 : {V(7)} + 2 ^ 384 * c12.toNat = {V(1)} + ({Pv}) := by
      simp only [cond_true] at h7 h8 h9 h10 h11 h12
      linear_combination {comb(7)}
    rw [modulus_sum] at k2
    simp only [Bool.toNat_true] at k1
    have e : ({val('rsi')}) + 2 ^ 384 - ({val('rdx')}) + p = {V(1)} + p := by omega
    rw [if_neg (by omega), e, ← k2, Nat.add_mul_mod_self_left, Nat.mod_eq_of_lt b2]''')
gen('lsubtract','`_lsubtract`: the difference modulo `2^384`.','(x + 2 ^ 384 - y) % 2 ^ 384',
 sublike(val('rsi'),um('rsi'),'rdx')+f'''  refine wp_nil ⟨⟨v1, v2, v3, v4, v5, v6⟩, ?_, {rfls}⟩
  rw [Fp.val_flat]
  simp only [readFp_val]
  have := Bool.toNat_le c6
  omega''')
gen('negate','`__negate`: the modulus minus the operand, modulo `2^384`.','(p + 2 ^ 384 - x) % 2 ^ 384',
 sublike(Pv,'p_lt','rsi')+f'''  rw [modulus_sum] at k1
  refine wp_nil ⟨⟨v1, v2, v3, v4, v5, v6⟩, ?_, {rfls}⟩
  rw [Fp.val_flat]
  simp only [readFp_val]
  have := Bool.toNat_le c6
  omega''')
out.append('end Bls.X86\n')
open('/verif/lean/Verif/Proof/AsmSmall.lean','w').write('\n'.join(out))
