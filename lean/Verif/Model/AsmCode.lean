import Verif.Model.X86

/-!
# The routines of `src/arithmetic.s` as instruction lists

Generated by `tools/gen_asm.py` from the text of the assembly file, instruction by instruction and in
order. The two long routines are cut into consecutive blocks at the comments of the source.
-/

namespace Bls.X86.Asm

/-- `_add`: `src/arithmetic.s:7-60`. -/
def add : List Instr := [
  .push .r15,
  .push .r14,
  .push .r13,
  .push .r12,
  .push .rbx,
  .mov (.mem 0 .rsi) .r8,
  .mov (.mem 8 .rsi) .r9,
  .mov (.mem 0x10 .rsi) .r10,
  .mov (.mem 0x18 .rsi) .r11,
  .mov (.mem 0x20 .rsi) .r12,
  .mov (.mem 0x28 .rsi) .r13,
  .add (.mem 0 .rdx) .r8,
  .adc (.mem 8 .rdx) .r9,
  .adc (.mem 0x10 .rdx) .r10,
  .adc (.mem 0x18 .rdx) .r11,
  .adc (.mem 0x20 .rdx) .r12,
  .adc (.mem 0x28 .rdx) .r13,
  .mov (.reg .r8) .r14,
  .mov (.reg .r9) .r15,
  .mov (.reg .r10) .rcx,
  .mov (.reg .r11) .rdx,
  .mov (.reg .r12) .rsi,
  .mov (.reg .r13) .rbx,
  .mov (.imm 0xb9feffffffffaaab) .rax,
  .sub (.reg .rax) .r14,
  .mov (.imm 0x1eabfffeb153ffff) .rax,
  .sbb (.reg .rax) .r15,
  .mov (.imm 0x6730d2a0f6b0f624) .rax,
  .sbb (.reg .rax) .rcx,
  .mov (.imm 0x64774b84f38512bf) .rax,
  .sbb (.reg .rax) .rdx,
  .mov (.imm 0x4b1ba7b6434bacd7) .rax,
  .sbb (.reg .rax) .rsi,
  .mov (.imm 0x1a0111ea397fe69a) .rax,
  .sbb (.reg .rax) .rbx,
  .cmovae .r14 .r8,
  .cmovae .r15 .r9,
  .cmovae .rcx .r10,
  .cmovae .rdx .r11,
  .cmovae .rsi .r12,
  .cmovae .rbx .r13,
  .store .r8 0 .rdi,
  .store .r9 8 .rdi,
  .store .r10 0x10 .rdi,
  .store .r11 0x18 .rdi,
  .store .r12 0x20 .rdi,
  .store .r13 0x28 .rdi,
  .pop .rbx,
  .pop .r12,
  .pop .r13,
  .pop .r14,
  .pop .r15,
  .ret]

/-- `_ladd`: `src/arithmetic.s:66-85`. -/
def ladd : List Instr := [
  .mov (.mem 0 .rsi) .r8,
  .mov (.mem 8 .rsi) .r9,
  .mov (.mem 0x10 .rsi) .r10,
  .mov (.mem 0x18 .rsi) .r11,
  .mov (.mem 0x20 .rsi) .rcx,
  .mov (.mem 0x28 .rsi) .rax,
  .add (.mem 0 .rdx) .r8,
  .adc (.mem 8 .rdx) .r9,
  .adc (.mem 0x10 .rdx) .r10,
  .adc (.mem 0x18 .rdx) .r11,
  .adc (.mem 0x20 .rdx) .rcx,
  .adc (.mem 0x28 .rdx) .rax,
  .store .r8 0 .rdi,
  .store .r9 8 .rdi,
  .store .r10 0x10 .rdi,
  .store .r11 0x18 .rdi,
  .store .rcx 0x20 .rdi,
  .store .rax 0x28 .rdi,
  .ret]

/-- `_double`: `src/arithmetic.s:91-144`. -/
def double : List Instr := [
  .push .r15,
  .push .r14,
  .push .r13,
  .push .r12,
  .push .rbx,
  .mov (.mem 0 .rsi) .r8,
  .mov (.mem 8 .rsi) .r9,
  .mov (.mem 0x10 .rsi) .r10,
  .mov (.mem 0x18 .rsi) .r11,
  .mov (.mem 0x20 .rsi) .r12,
  .mov (.mem 0x28 .rsi) .r13,
  .add (.reg .r8) .r8,
  .adc (.reg .r9) .r9,
  .adc (.reg .r10) .r10,
  .adc (.reg .r11) .r11,
  .adc (.reg .r12) .r12,
  .adc (.reg .r13) .r13,
  .mov (.reg .r8) .r14,
  .mov (.reg .r9) .r15,
  .mov (.reg .r10) .rcx,
  .mov (.reg .r11) .rdx,
  .mov (.reg .r12) .rsi,
  .mov (.reg .r13) .rbx,
  .mov (.imm 0xb9feffffffffaaab) .rax,
  .sub (.reg .rax) .r14,
  .mov (.imm 0x1eabfffeb153ffff) .rax,
  .sbb (.reg .rax) .r15,
  .mov (.imm 0x6730d2a0f6b0f624) .rax,
  .sbb (.reg .rax) .rcx,
  .mov (.imm 0x64774b84f38512bf) .rax,
  .sbb (.reg .rax) .rdx,
  .mov (.imm 0x4b1ba7b6434bacd7) .rax,
  .sbb (.reg .rax) .rsi,
  .mov (.imm 0x1a0111ea397fe69a) .rax,
  .sbb (.reg .rax) .rbx,
  .cmovae .r14 .r8,
  .cmovae .r15 .r9,
  .cmovae .rcx .r10,
  .cmovae .rdx .r11,
  .cmovae .rsi .r12,
  .cmovae .rbx .r13,
  .store .r8 0 .rdi,
  .store .r9 8 .rdi,
  .store .r10 0x10 .rdi,
  .store .r11 0x18 .rdi,
  .store .r12 0x20 .rdi,
  .store .r13 0x28 .rdi,
  .pop .rbx,
  .pop .r12,
  .pop .r13,
  .pop .r14,
  .pop .r15,
  .ret]

/-- `_ldouble`: `src/arithmetic.s:150-169`. -/
def ldouble : List Instr := [
  .mov (.mem 0 .rsi) .r8,
  .mov (.mem 8 .rsi) .r9,
  .mov (.mem 0x10 .rsi) .r10,
  .mov (.mem 0x18 .rsi) .r11,
  .mov (.mem 0x20 .rsi) .rcx,
  .mov (.mem 0x28 .rsi) .rax,
  .add (.reg .r8) .r8,
  .adc (.reg .r9) .r9,
  .adc (.reg .r10) .r10,
  .adc (.reg .r11) .r11,
  .adc (.reg .rcx) .rcx,
  .adc (.reg .rax) .rax,
  .store .r8 0 .rdi,
  .store .r9 8 .rdi,
  .store .r10 0x10 .rdi,
  .store .r11 0x18 .rdi,
  .store .rcx 0x20 .rdi,
  .store .rax 0x28 .rdi,
  .ret]

/-- `_subtract`: `src/arithmetic.s:175-223`. -/
def subtract : List Instr := [
  .push .r15,
  .push .r14,
  .push .r13,
  .push .r12,
  .push .rbx,
  .xor .rax .rax,
  .mov (.mem 0 .rsi) .r8,
  .mov (.mem 8 .rsi) .r9,
  .mov (.mem 0x10 .rsi) .r10,
  .mov (.mem 0x18 .rsi) .r11,
  .mov (.mem 0x20 .rsi) .r12,
  .mov (.mem 0x28 .rsi) .r13,
  .sub (.mem 0 .rdx) .r8,
  .sbb (.mem 8 .rdx) .r9,
  .sbb (.mem 0x10 .rdx) .r10,
  .sbb (.mem 0x18 .rdx) .r11,
  .sbb (.mem 0x20 .rdx) .r12,
  .sbb (.mem 0x28 .rdx) .r13,
  .mov (.imm 0xb9feffffffffaaab) .r14,
  .mov (.imm 0x1eabfffeb153ffff) .r15,
  .mov (.imm 0x6730d2a0f6b0f624) .rcx,
  .mov (.imm 0x64774b84f38512bf) .rdx,
  .mov (.imm 0x4b1ba7b6434bacd7) .rsi,
  .mov (.imm 0x1a0111ea397fe69a) .rbx,
  .cmovae .rax .r14,
  .cmovae .rax .r15,
  .cmovae .rax .rcx,
  .cmovae .rax .rdx,
  .cmovae .rax .rsi,
  .cmovae .rax .rbx,
  .add (.reg .r14) .r8,
  .adc (.reg .r15) .r9,
  .adc (.reg .rcx) .r10,
  .adc (.reg .rdx) .r11,
  .adc (.reg .rsi) .r12,
  .adc (.reg .rbx) .r13,
  .store .r8 0 .rdi,
  .store .r9 8 .rdi,
  .store .r10 0x10 .rdi,
  .store .r11 0x18 .rdi,
  .store .r12 0x20 .rdi,
  .store .r13 0x28 .rdi,
  .pop .rbx,
  .pop .r12,
  .pop .r13,
  .pop .r14,
  .pop .r15,
  .ret]

/-- `_lsubtract`: `src/arithmetic.s:229-248`. -/
def lsubtract : List Instr := [
  .mov (.mem 0 .rsi) .r8,
  .mov (.mem 8 .rsi) .r9,
  .mov (.mem 0x10 .rsi) .r10,
  .mov (.mem 0x18 .rsi) .r11,
  .mov (.mem 0x20 .rsi) .rcx,
  .mov (.mem 0x28 .rsi) .rax,
  .sub (.mem 0 .rdx) .r8,
  .sbb (.mem 8 .rdx) .r9,
  .sbb (.mem 0x10 .rdx) .r10,
  .sbb (.mem 0x18 .rdx) .r11,
  .sbb (.mem 0x20 .rdx) .rcx,
  .sbb (.mem 0x28 .rdx) .rax,
  .store .r8 0 .rdi,
  .store .r9 8 .rdi,
  .store .r10 0x10 .rdi,
  .store .r11 0x18 .rdi,
  .store .rcx 0x20 .rdi,
  .store .rax 0x28 .rdi,
  .ret]

/-- `__negate`: `src/arithmetic.s:254-273`. -/
def negate : List Instr := [
  .mov (.imm 0xb9feffffffffaaab) .r8,
  .mov (.imm 0x1eabfffeb153ffff) .r9,
  .mov (.imm 0x6730d2a0f6b0f624) .r10,
  .mov (.imm 0x64774b84f38512bf) .r11,
  .mov (.imm 0x4b1ba7b6434bacd7) .rcx,
  .mov (.imm 0x1a0111ea397fe69a) .rax,
  .sub (.mem 0 .rsi) .r8,
  .sbb (.mem 8 .rsi) .r9,
  .sbb (.mem 0x10 .rsi) .r10,
  .sbb (.mem 0x18 .rsi) .r11,
  .sbb (.mem 0x20 .rsi) .rcx,
  .sbb (.mem 0x28 .rsi) .rax,
  .store .r8 0 .rdi,
  .store .r9 8 .rdi,
  .store .r10 0x10 .rdi,
  .store .r11 0x18 .rdi,
  .store .rcx 0x20 .rdi,
  .store .rax 0x28 .rdi,
  .ret]

/-- Part of `__multiply`: `src/arithmetic.s:280-314`. -/
def multiply_pre : List Instr := [
  .push .rbp,
  .push .r15,
  .push .r14,
  .push .r13,
  .push .r12,
  .push .rbx,
  .mov (.imm 0x89f3fffcfffcfffd) .rax,
  .push .rax,
  .movRsp .rbp,
  .mov (.imm 0xb9feffffffffaaab) .rax,
  .push .rax,
  .mov (.imm 0x1eabfffeb153ffff) .rax,
  .push .rax,
  .mov (.imm 0x6730d2a0f6b0f624) .rax,
  .push .rax,
  .mov (.imm 0x64774b84f38512bf) .rax,
  .push .rax,
  .mov (.imm 0x4b1ba7b6434bacd7) .rax,
  .push .rax,
  .mov (.imm 0x1a0111ea397fe69a) .rax,
  .push .rax,
  .mov (.imm 0) .r9,
  .mov (.imm 0) .r10,
  .mov (.imm 0) .r11,
  .mov (.imm 0) .r12,
  .mov (.imm 0) .r13,
  .mov (.imm 0) .r14,
  .mov (.imm 0) .r15,
  .push .rdi,
  .mov (.reg .rdx) .rdi]

/-- Part of `__multiply`: `src/arithmetic.s:316-340`. -/
def multiply_row0 : List Instr := [
  .mov (.mem 0 .rsi) .rcx,
  .mov (.mem 0 .rdi) .rax,
  .mul (.reg .rcx),
  .push .rax,
  .mov (.reg .rdx) .r8,
  .mov (.mem 8 .rdi) .rax,
  .mul (.reg .rcx),
  .add (.reg .rax) .r8,
  .adc (.reg .rdx) .r9,
  .mov (.mem 0x10 .rdi) .rax,
  .mul (.reg .rcx),
  .add (.reg .rax) .r9,
  .adc (.reg .rdx) .r10,
  .mov (.mem 0x18 .rdi) .rax,
  .mul (.reg .rcx),
  .add (.reg .rax) .r10,
  .adc (.reg .rdx) .r11,
  .mov (.mem 0x20 .rdi) .rax,
  .mul (.reg .rcx),
  .add (.reg .rax) .r11,
  .adc (.reg .rdx) .r12,
  .mov (.mem 0x28 .rdi) .rax,
  .mul (.reg .rcx),
  .add (.reg .rax) .r12,
  .adc (.reg .rdx) .r13]

/-- Part of `__multiply`: `src/arithmetic.s:342-381`. -/
def multiply_row1 : List Instr := [
  .mov (.mem 8 .rsi) .rcx,
  .mov (.imm 0) .rbx,
  .mov (.mem 0 .rdi) .rax,
  .mul (.reg .rcx),
  .add (.reg .rax) .r8,
  .adc (.reg .rdx) .r9,
  .adc (.imm 0) .r10,
  .adc (.imm 0) .rbx,
  .push .r8,
  .mov (.imm 0) .r8,
  .mov (.mem 8 .rdi) .rax,
  .mul (.reg .rcx),
  .add (.reg .rax) .r9,
  .adc (.reg .rdx) .r10,
  .adc (.reg .rbx) .r11,
  .mov (.imm 0) .rbx,
  .adc (.imm 0) .rbx,
  .mov (.mem 0x10 .rdi) .rax,
  .mul (.reg .rcx),
  .add (.reg .rax) .r10,
  .adc (.reg .rdx) .r11,
  .adc (.reg .rbx) .r12,
  .mov (.imm 0) .rbx,
  .adc (.imm 0) .rbx,
  .mov (.mem 0x18 .rdi) .rax,
  .mul (.reg .rcx),
  .add (.reg .rax) .r11,
  .adc (.reg .rdx) .r12,
  .adc (.reg .rbx) .r13,
  .mov (.imm 0) .rbx,
  .adc (.imm 0) .rbx,
  .mov (.mem 0x20 .rdi) .rax,
  .mul (.reg .rcx),
  .add (.reg .rax) .r12,
  .adc (.reg .rdx) .r13,
  .adc (.reg .rbx) .r14,
  .mov (.mem 0x28 .rdi) .rax,
  .mul (.reg .rcx),
  .add (.reg .rax) .r13,
  .adc (.reg .rdx) .r14]

/-- Part of `__multiply`: `src/arithmetic.s:383-422`. -/
def multiply_row2 : List Instr := [
  .mov (.mem 0x10 .rsi) .rcx,
  .mov (.imm 0) .rbx,
  .mov (.mem 0 .rdi) .rax,
  .mul (.reg .rcx),
  .add (.reg .rax) .r9,
  .adc (.reg .rdx) .r10,
  .adc (.imm 0) .r11,
  .adc (.imm 0) .rbx,
  .push .r9,
  .mov (.imm 0) .r9,
  .mov (.mem 8 .rdi) .rax,
  .mul (.reg .rcx),
  .add (.reg .rax) .r10,
  .adc (.reg .rdx) .r11,
  .adc (.reg .rbx) .r12,
  .mov (.imm 0) .rbx,
  .adc (.imm 0) .rbx,
  .mov (.mem 0x10 .rdi) .rax,
  .mul (.reg .rcx),
  .add (.reg .rax) .r11,
  .adc (.reg .rdx) .r12,
  .adc (.reg .rbx) .r13,
  .mov (.imm 0) .rbx,
  .adc (.imm 0) .rbx,
  .mov (.mem 0x18 .rdi) .rax,
  .mul (.reg .rcx),
  .add (.reg .rax) .r12,
  .adc (.reg .rdx) .r13,
  .adc (.reg .rbx) .r14,
  .mov (.imm 0) .rbx,
  .adc (.imm 0) .rbx,
  .mov (.mem 0x20 .rdi) .rax,
  .mul (.reg .rcx),
  .add (.reg .rax) .r13,
  .adc (.reg .rdx) .r14,
  .adc (.reg .rbx) .r15,
  .mov (.mem 0x28 .rdi) .rax,
  .mul (.reg .rcx),
  .add (.reg .rax) .r14,
  .adc (.reg .rdx) .r15]

/-- Part of `__multiply`: `src/arithmetic.s:424-461`. -/
def multiply_row3 : List Instr := [
  .mov (.mem 0x18 .rsi) .rcx,
  .mov (.imm 0) .rbx,
  .mov (.mem 0 .rdi) .rax,
  .mul (.reg .rcx),
  .add (.reg .rax) .r10,
  .adc (.reg .rdx) .r11,
  .adc (.imm 0) .r12,
  .adc (.imm 0) .rbx,
  .mov (.mem 8 .rdi) .rax,
  .mul (.reg .rcx),
  .add (.reg .rax) .r11,
  .adc (.reg .rdx) .r12,
  .adc (.reg .rbx) .r13,
  .mov (.imm 0) .rbx,
  .adc (.imm 0) .rbx,
  .mov (.mem 0x10 .rdi) .rax,
  .mul (.reg .rcx),
  .add (.reg .rax) .r12,
  .adc (.reg .rdx) .r13,
  .adc (.reg .rbx) .r14,
  .mov (.imm 0) .rbx,
  .adc (.imm 0) .rbx,
  .mov (.mem 0x18 .rdi) .rax,
  .mul (.reg .rcx),
  .add (.reg .rax) .r13,
  .adc (.reg .rdx) .r14,
  .adc (.reg .rbx) .r15,
  .mov (.imm 0) .rbx,
  .adc (.imm 0) .rbx,
  .mov (.mem 0x20 .rdi) .rax,
  .mul (.reg .rcx),
  .add (.reg .rax) .r14,
  .adc (.reg .rdx) .r15,
  .adc (.reg .rbx) .r8,
  .mov (.mem 0x28 .rdi) .rax,
  .mul (.reg .rcx),
  .add (.reg .rax) .r15,
  .adc (.reg .rdx) .r8]

/-- Part of `__multiply`: `src/arithmetic.s:463-500`. -/
def multiply_row4 : List Instr := [
  .mov (.mem 0x20 .rsi) .rcx,
  .mov (.imm 0) .rbx,
  .mov (.mem 0 .rdi) .rax,
  .mul (.reg .rcx),
  .add (.reg .rax) .r11,
  .adc (.reg .rdx) .r12,
  .adc (.imm 0) .r13,
  .adc (.imm 0) .rbx,
  .mov (.mem 8 .rdi) .rax,
  .mul (.reg .rcx),
  .add (.reg .rax) .r12,
  .adc (.reg .rdx) .r13,
  .adc (.reg .rbx) .r14,
  .mov (.imm 0) .rbx,
  .adc (.imm 0) .rbx,
  .mov (.mem 0x10 .rdi) .rax,
  .mul (.reg .rcx),
  .add (.reg .rax) .r13,
  .adc (.reg .rdx) .r14,
  .adc (.reg .rbx) .r15,
  .mov (.imm 0) .rbx,
  .adc (.imm 0) .rbx,
  .mov (.mem 0x18 .rdi) .rax,
  .mul (.reg .rcx),
  .add (.reg .rax) .r14,
  .adc (.reg .rdx) .r15,
  .adc (.reg .rbx) .r8,
  .mov (.imm 0) .rbx,
  .adc (.imm 0) .rbx,
  .mov (.mem 0x20 .rdi) .rax,
  .mul (.reg .rcx),
  .add (.reg .rax) .r15,
  .adc (.reg .rdx) .r8,
  .adc (.reg .rbx) .r9,
  .mov (.mem 0x28 .rdi) .rax,
  .mul (.reg .rcx),
  .add (.reg .rax) .r8,
  .adc (.reg .rdx) .r9]

/-- Part of `__multiply`: `src/arithmetic.s:502-545`. -/
def multiply_row5 : List Instr := [
  .mov (.mem 0x28 .rsi) .rcx,
  .mov (.imm 0) .rbx,
  .mov (.mem 0 .rdi) .rax,
  .mul (.reg .rcx),
  .add (.reg .rax) .r12,
  .adc (.reg .rdx) .r13,
  .adc (.imm 0) .r14,
  .adc (.imm 0) .rbx,
  .mov (.mem 8 .rdi) .rax,
  .mul (.reg .rcx),
  .add (.reg .rax) .r13,
  .adc (.reg .rdx) .r14,
  .adc (.reg .rbx) .r15,
  .mov (.imm 0) .rbx,
  .adc (.imm 0) .rbx,
  .mov (.mem 0x10 .rdi) .rax,
  .mul (.reg .rcx),
  .add (.reg .rax) .r14,
  .adc (.reg .rdx) .r15,
  .adc (.reg .rbx) .r8,
  .mov (.imm 0) .rbx,
  .adc (.imm 0) .rbx,
  .mov (.mem 0x18 .rdi) .rax,
  .mul (.reg .rcx),
  .add (.reg .rax) .r15,
  .adc (.reg .rdx) .r8,
  .adc (.reg .rbx) .r9,
  .mov (.imm 0) .rbx,
  .adc (.imm 0) .rbx,
  .mov (.mem 0x20 .rdi) .rax,
  .mul (.reg .rcx),
  .add (.reg .rax) .r8,
  .adc (.reg .rdx) .r9,
  .adc (.imm 0) .rbx,
  .mov (.mem 0x28 .rdi) .rax,
  .mul (.reg .rcx),
  .add (.reg .rax) .r9,
  .adc (.reg .rdx) .rbx,
  .pop .rsi,
  .pop .rdi,
  .pop .rcx,
  .push .rbx,
  .push .r9]

/-- Part of `__multiply`: `src/arithmetic.s:549-597`. -/
def multiply_mont0 : List Instr := [
  .mov (.reg .rcx) .rax,
  .mul (.mem 0 .rbp),
  .mov (.reg .rax) .r9,
  .mov (.imm 0) .rbx,
  .mov (.mem 0xfffffffffffffff8 .rbp) .rax,
  .mul (.reg .r9),
  .add (.reg .rax) .rcx,
  .adc (.reg .rdx) .rbx,
  .mov (.mem 0xfffffffffffffff0 .rbp) .rax,
  .mul (.reg .r9),
  .add (.reg .rax) .rdi,
  .adc (.imm 0) .rdx,
  .add (.reg .rbx) .rdi,
  .mov (.imm 0) .rbx,
  .adc (.reg .rdx) .rbx,
  .mov (.mem 0xffffffffffffffe8 .rbp) .rax,
  .mul (.reg .r9),
  .add (.reg .rax) .rsi,
  .adc (.imm 0) .rdx,
  .add (.reg .rbx) .rsi,
  .mov (.imm 0) .rbx,
  .adc (.reg .rdx) .rbx,
  .mov (.mem 0xffffffffffffffe0 .rbp) .rax,
  .mul (.reg .r9),
  .add (.reg .rax) .r10,
  .adc (.imm 0) .rdx,
  .add (.reg .rbx) .r10,
  .mov (.imm 0) .rbx,
  .adc (.reg .rdx) .rbx,
  .mov (.mem 0xffffffffffffffd8 .rbp) .rax,
  .mul (.reg .r9),
  .add (.reg .rax) .r11,
  .adc (.imm 0) .rdx,
  .add (.reg .rbx) .r11,
  .mov (.imm 0) .rbx,
  .adc (.reg .rdx) .rbx,
  .mov (.mem 0xffffffffffffffd0 .rbp) .rax,
  .mul (.reg .r9),
  .add (.reg .rax) .r12,
  .adc (.imm 0) .rdx,
  .add (.reg .rbx) .r12,
  .adc (.reg .rdx) .r13,
  .adc (.imm 0) .rcx]

/-- Part of `__multiply`: `src/arithmetic.s:599-648`. -/
def multiply_mont1 : List Instr := [
  .mov (.reg .rdi) .rax,
  .mul (.mem 0 .rbp),
  .mov (.reg .rax) .r9,
  .mov (.imm 0) .rbx,
  .mov (.mem 0xfffffffffffffff8 .rbp) .rax,
  .mul (.reg .r9),
  .add (.reg .rax) .rdi,
  .adc (.reg .rdx) .rbx,
  .mov (.mem 0xfffffffffffffff0 .rbp) .rax,
  .mul (.reg .r9),
  .add (.reg .rax) .rsi,
  .adc (.imm 0) .rdx,
  .add (.reg .rbx) .rsi,
  .mov (.imm 0) .rbx,
  .adc (.reg .rdx) .rbx,
  .mov (.mem 0xffffffffffffffe8 .rbp) .rax,
  .mul (.reg .r9),
  .add (.reg .rax) .r10,
  .adc (.imm 0) .rdx,
  .add (.reg .rbx) .r10,
  .mov (.imm 0) .rbx,
  .adc (.reg .rdx) .rbx,
  .mov (.mem 0xffffffffffffffe0 .rbp) .rax,
  .mul (.reg .r9),
  .add (.reg .rax) .r11,
  .adc (.imm 0) .rdx,
  .add (.reg .rbx) .r11,
  .mov (.imm 0) .rbx,
  .adc (.reg .rdx) .rbx,
  .mov (.mem 0xffffffffffffffd8 .rbp) .rax,
  .mul (.reg .r9),
  .add (.reg .rax) .r12,
  .adc (.imm 0) .rdx,
  .add (.reg .rbx) .r12,
  .mov (.imm 0) .rbx,
  .adc (.reg .rdx) .rbx,
  .mov (.mem 0xffffffffffffffd0 .rbp) .rax,
  .mul (.reg .r9),
  .add (.reg .rax) .r13,
  .adc (.reg .rdx) .rcx,
  .add (.reg .rbx) .r13,
  .adc (.reg .rcx) .r14,
  .mov (.imm 0) .rcx,
  .adc (.imm 0) .rcx]

/-- Part of `__multiply`: `src/arithmetic.s:650-699`. -/
def multiply_mont2 : List Instr := [
  .mov (.reg .rsi) .rax,
  .mul (.mem 0 .rbp),
  .mov (.reg .rax) .r9,
  .mov (.imm 0) .rbx,
  .mov (.mem 0xfffffffffffffff8 .rbp) .rax,
  .mul (.reg .r9),
  .add (.reg .rax) .rsi,
  .adc (.reg .rdx) .rbx,
  .mov (.mem 0xfffffffffffffff0 .rbp) .rax,
  .mul (.reg .r9),
  .add (.reg .rax) .r10,
  .adc (.imm 0) .rdx,
  .add (.reg .rbx) .r10,
  .mov (.imm 0) .rbx,
  .adc (.reg .rdx) .rbx,
  .mov (.mem 0xffffffffffffffe8 .rbp) .rax,
  .mul (.reg .r9),
  .add (.reg .rax) .r11,
  .adc (.imm 0) .rdx,
  .add (.reg .rbx) .r11,
  .mov (.imm 0) .rbx,
  .adc (.reg .rdx) .rbx,
  .mov (.mem 0xffffffffffffffe0 .rbp) .rax,
  .mul (.reg .r9),
  .add (.reg .rax) .r12,
  .adc (.imm 0) .rdx,
  .add (.reg .rbx) .r12,
  .mov (.imm 0) .rbx,
  .adc (.reg .rdx) .rbx,
  .mov (.mem 0xffffffffffffffd8 .rbp) .rax,
  .mul (.reg .r9),
  .add (.reg .rax) .r13,
  .adc (.imm 0) .rdx,
  .add (.reg .rbx) .r13,
  .mov (.imm 0) .rbx,
  .adc (.reg .rdx) .rbx,
  .mov (.mem 0xffffffffffffffd0 .rbp) .rax,
  .mul (.reg .r9),
  .add (.reg .rax) .r14,
  .adc (.reg .rdx) .rcx,
  .add (.reg .rbx) .r14,
  .adc (.reg .rcx) .r15,
  .mov (.imm 0) .rcx,
  .adc (.imm 0) .rcx]

/-- Part of `__multiply`: `src/arithmetic.s:701-750`. -/
def multiply_mont3 : List Instr := [
  .mov (.reg .r10) .rax,
  .mul (.mem 0 .rbp),
  .mov (.reg .rax) .r9,
  .mov (.imm 0) .rbx,
  .mov (.mem 0xfffffffffffffff8 .rbp) .rax,
  .mul (.reg .r9),
  .add (.reg .rax) .r10,
  .adc (.reg .rdx) .rbx,
  .mov (.mem 0xfffffffffffffff0 .rbp) .rax,
  .mul (.reg .r9),
  .add (.reg .rax) .r11,
  .adc (.imm 0) .rdx,
  .add (.reg .rbx) .r11,
  .mov (.imm 0) .rbx,
  .adc (.reg .rdx) .rbx,
  .mov (.mem 0xffffffffffffffe8 .rbp) .rax,
  .mul (.reg .r9),
  .add (.reg .rax) .r12,
  .adc (.imm 0) .rdx,
  .add (.reg .rbx) .r12,
  .mov (.imm 0) .rbx,
  .adc (.reg .rdx) .rbx,
  .mov (.mem 0xffffffffffffffe0 .rbp) .rax,
  .mul (.reg .r9),
  .add (.reg .rax) .r13,
  .adc (.imm 0) .rdx,
  .add (.reg .rbx) .r13,
  .mov (.imm 0) .rbx,
  .adc (.reg .rdx) .rbx,
  .mov (.mem 0xffffffffffffffd8 .rbp) .rax,
  .mul (.reg .r9),
  .add (.reg .rax) .r14,
  .adc (.imm 0) .rdx,
  .add (.reg .rbx) .r14,
  .mov (.imm 0) .rbx,
  .adc (.reg .rdx) .rbx,
  .mov (.mem 0xffffffffffffffd0 .rbp) .rax,
  .mul (.reg .r9),
  .add (.reg .rax) .r15,
  .adc (.reg .rdx) .rcx,
  .add (.reg .rbx) .r15,
  .adc (.reg .rcx) .r8,
  .mov (.imm 0) .rcx,
  .adc (.imm 0) .rcx]

/-- Part of `__multiply`: `src/arithmetic.s:752-802`. -/
def multiply_mont4 : List Instr := [
  .mov (.reg .r11) .rax,
  .mul (.mem 0 .rbp),
  .mov (.reg .rax) .r9,
  .mov (.imm 0) .rbx,
  .mov (.mem 0xfffffffffffffff8 .rbp) .rax,
  .mul (.reg .r9),
  .add (.reg .rax) .r11,
  .adc (.reg .rdx) .rbx,
  .mov (.mem 0xfffffffffffffff0 .rbp) .rax,
  .mul (.reg .r9),
  .add (.reg .rax) .r12,
  .adc (.imm 0) .rdx,
  .add (.reg .rbx) .r12,
  .mov (.imm 0) .rbx,
  .adc (.reg .rdx) .rbx,
  .mov (.mem 0xffffffffffffffe8 .rbp) .rax,
  .mul (.reg .r9),
  .add (.reg .rax) .r13,
  .adc (.imm 0) .rdx,
  .add (.reg .rbx) .r13,
  .mov (.imm 0) .rbx,
  .adc (.reg .rdx) .rbx,
  .mov (.mem 0xffffffffffffffe0 .rbp) .rax,
  .mul (.reg .r9),
  .add (.reg .rax) .r14,
  .adc (.imm 0) .rdx,
  .add (.reg .rbx) .r14,
  .mov (.imm 0) .rbx,
  .adc (.reg .rdx) .rbx,
  .mov (.mem 0xffffffffffffffd8 .rbp) .rax,
  .mul (.reg .r9),
  .add (.reg .rax) .r15,
  .adc (.imm 0) .rdx,
  .add (.reg .rbx) .r15,
  .mov (.imm 0) .rbx,
  .adc (.reg .rdx) .rbx,
  .mov (.mem 0xffffffffffffffd0 .rbp) .rax,
  .mul (.reg .r9),
  .add (.reg .rax) .r8,
  .adc (.reg .rdx) .rcx,
  .add (.reg .rbx) .r8,
  .pop .rdi,
  .adc (.reg .rcx) .rdi,
  .mov (.imm 0) .rcx,
  .adc (.imm 0) .rcx]

/-- Part of `__multiply`: `src/arithmetic.s:804-852`. -/
def multiply_mont5 : List Instr := [
  .mov (.reg .r12) .rax,
  .mul (.mem 0 .rbp),
  .mov (.reg .rax) .r9,
  .mov (.imm 0) .rbx,
  .mov (.mem 0xfffffffffffffff8 .rbp) .rax,
  .mul (.reg .r9),
  .add (.reg .rax) .r12,
  .adc (.reg .rdx) .rbx,
  .mov (.mem 0xfffffffffffffff0 .rbp) .rax,
  .mul (.reg .r9),
  .add (.reg .rax) .r13,
  .adc (.imm 0) .rdx,
  .add (.reg .rbx) .r13,
  .mov (.imm 0) .rbx,
  .adc (.reg .rdx) .rbx,
  .mov (.mem 0xffffffffffffffe8 .rbp) .rax,
  .mul (.reg .r9),
  .add (.reg .rax) .r14,
  .adc (.imm 0) .rdx,
  .add (.reg .rbx) .r14,
  .mov (.imm 0) .rbx,
  .adc (.reg .rdx) .rbx,
  .mov (.mem 0xffffffffffffffe0 .rbp) .rax,
  .mul (.reg .r9),
  .add (.reg .rax) .r15,
  .adc (.imm 0) .rdx,
  .add (.reg .rbx) .r15,
  .mov (.imm 0) .rbx,
  .adc (.reg .rdx) .rbx,
  .mov (.mem 0xffffffffffffffd8 .rbp) .rax,
  .mul (.reg .r9),
  .add (.reg .rax) .r8,
  .adc (.imm 0) .rdx,
  .add (.reg .rbx) .r8,
  .mov (.imm 0) .rbx,
  .adc (.reg .rdx) .rbx,
  .mov (.mem 0xffffffffffffffd0 .rbp) .rax,
  .mul (.reg .r9),
  .add (.reg .rax) .rdi,
  .adc (.reg .rdx) .rcx,
  .add (.reg .rbx) .rdi,
  .pop .rsi,
  .adc (.reg .rsi) .rcx]

/-- Part of `__multiply`: `src/arithmetic.s:855-866`. -/
def multiply_red : List Instr := [
  .mov (.reg .r13) .r10,
  .sub (.mem 0xfffffffffffffff8 .rbp) .r10,
  .mov (.reg .r14) .r11,
  .sbb (.mem 0xfffffffffffffff0 .rbp) .r11,
  .mov (.reg .r15) .r12,
  .sbb (.mem 0xffffffffffffffe8 .rbp) .r12,
  .mov (.reg .r8) .rax,
  .sbb (.mem 0xffffffffffffffe0 .rbp) .rax,
  .mov (.reg .rdi) .rbx,
  .sbb (.mem 0xffffffffffffffd8 .rbp) .rbx,
  .mov (.reg .rcx) .r9,
  .sbb (.mem 0xffffffffffffffd0 .rbp) .r9]

/-- Part of `__multiply`: `src/arithmetic.s:869-897`. -/
def multiply_out : List Instr := [
  .pop .rsi,
  .cmovae .r10 .r13,
  .store .r13 0 .rsi,
  .cmovae .r11 .r14,
  .store .r14 8 .rsi,
  .cmovae .r12 .r15,
  .store .r15 0x10 .rsi,
  .cmovae .rax .r8,
  .store .r8 0x18 .rsi,
  .cmovae .rbx .rdi,
  .store .rdi 0x20 .rsi,
  .cmovae .r9 .rcx,
  .store .rcx 0x28 .rsi,
  .pop .rax,
  .pop .rax,
  .pop .rax,
  .pop .rax,
  .pop .rax,
  .pop .rax,
  .pop .rax,
  .pop .rbx,
  .pop .r12,
  .pop .r13,
  .pop .r14,
  .pop .r15,
  .pop .rbp,
  .ret]

/-- `__multiply`: `src/arithmetic.s:279-897`. -/
def multiply : List Instr :=
  multiply_pre ++ (multiply_row0 ++ (multiply_row1 ++ (multiply_row2 ++ (multiply_row3 ++ (multiply_row4 ++ (multiply_row5 ++ (multiply_mont0 ++ (multiply_mont1 ++ (multiply_mont2 ++ (multiply_mont3 ++ (multiply_mont4 ++ (multiply_mont5 ++ (multiply_red ++ (multiply_out))))))))))))))

/-- Part of `__mul_ex`: `src/arithmetic.s:904-931`. -/
def mul_ex_pre : List Instr := [
  .push .rbp,
  .push .r15,
  .push .r14,
  .push .r13,
  .push .r12,
  .push .rbx,
  .mov (.imm 0x89f3fffcfffcfffd) .rax,
  .push .rax,
  .movRsp .rbp,
  .mov (.imm 0xb9feffffffffaaab) .rax,
  .push .rax,
  .mov (.imm 0x1eabfffeb153ffff) .rax,
  .push .rax,
  .mov (.imm 0x6730d2a0f6b0f624) .rax,
  .push .rax,
  .mov (.imm 0x64774b84f38512bf) .rax,
  .push .rax,
  .mov (.imm 0x4b1ba7b6434bacd7) .rax,
  .push .rax,
  .mov (.imm 0x1a0111ea397fe69a) .rax,
  .push .rax,
  .push .rdi,
  .mov (.reg .rdx) .rdi,
  .xor .rax .rax]

/-- Part of `__mul_ex`: `src/arithmetic.s:933-946`. -/
def mul_ex_row0 : List Instr := [
  .mov (.mem 0 .rsi) .rdx,
  .mulx (.mem 0 .rdi) .rax .rcx,
  .push .rax,
  .mulx (.mem 8 .rdi) .rax .r8,
  .adcx .rax .rcx,
  .mulx (.mem 0x10 .rdi) .rax .r9,
  .adcx .rax .r8,
  .mulx (.mem 0x18 .rdi) .rax .r10,
  .adcx .rax .r9,
  .mulx (.mem 0x20 .rdi) .rax .r11,
  .adcx .rax .r10,
  .mulx (.mem 0x28 .rdi) .rax .r12,
  .adcx .rax .r11,
  .adc (.imm 0) .r12]

/-- Part of `__mul_ex`: `src/arithmetic.s:948-969`. -/
def mul_ex_row1 : List Instr := [
  .mov (.mem 8 .rsi) .rdx,
  .xor .r13 .r13,
  .mulx (.mem 0 .rdi) .rax .rbx,
  .adox .rax .rcx,
  .adcx .rbx .r8,
  .push .rcx,
  .mulx (.mem 8 .rdi) .rax .rbx,
  .adox .rax .r8,
  .adcx .rbx .r9,
  .mulx (.mem 0x10 .rdi) .rax .rbx,
  .adox .rax .r9,
  .adcx .rbx .r10,
  .mulx (.mem 0x18 .rdi) .rax .rbx,
  .adox .rax .r10,
  .adcx .rbx .r11,
  .mulx (.mem 0x20 .rdi) .rax .rbx,
  .adox .rax .r11,
  .adcx .rbx .r12,
  .mulx (.mem 0x28 .rdi) .rax .rbx,
  .adox .rax .r12,
  .adox .r13 .r13,
  .adcx .rbx .r13]

/-- Part of `__mul_ex`: `src/arithmetic.s:971-991`. -/
def mul_ex_row2 : List Instr := [
  .mov (.mem 0x10 .rsi) .rdx,
  .xor .r14 .r14,
  .mulx (.mem 0 .rdi) .rax .rbx,
  .adox .rax .r8,
  .adcx .rbx .r9,
  .mulx (.mem 8 .rdi) .rax .rbx,
  .adox .rax .r9,
  .adcx .rbx .r10,
  .mulx (.mem 0x10 .rdi) .rax .rbx,
  .adox .rax .r10,
  .adcx .rbx .r11,
  .mulx (.mem 0x18 .rdi) .rax .rbx,
  .adox .rax .r11,
  .adcx .rbx .r12,
  .mulx (.mem 0x20 .rdi) .rax .rbx,
  .adox .rax .r12,
  .adcx .rbx .r13,
  .mulx (.mem 0x28 .rdi) .rax .rbx,
  .adox .rax .r13,
  .adox .r14 .r14,
  .adcx .rbx .r14]

/-- Part of `__mul_ex`: `src/arithmetic.s:993-1013`. -/
def mul_ex_row3 : List Instr := [
  .mov (.mem 0x18 .rsi) .rdx,
  .xor .r15 .r15,
  .mulx (.mem 0 .rdi) .rax .rbx,
  .adox .rax .r9,
  .adcx .rbx .r10,
  .mulx (.mem 8 .rdi) .rax .rbx,
  .adox .rax .r10,
  .adcx .rbx .r11,
  .mulx (.mem 0x10 .rdi) .rax .rbx,
  .adox .rax .r11,
  .adcx .rbx .r12,
  .mulx (.mem 0x18 .rdi) .rax .rbx,
  .adox .rax .r12,
  .adcx .rbx .r13,
  .mulx (.mem 0x20 .rdi) .rax .rbx,
  .adox .rax .r13,
  .adcx .rbx .r14,
  .mulx (.mem 0x28 .rdi) .rax .rbx,
  .adox .rax .r14,
  .adox .r15 .r15,
  .adcx .rbx .r15]

/-- Part of `__mul_ex`: `src/arithmetic.s:1015-1035`. -/
def mul_ex_row4 : List Instr := [
  .mov (.mem 0x20 .rsi) .rdx,
  .xor .rcx .rcx,
  .mulx (.mem 0 .rdi) .rax .rbx,
  .adox .rax .r10,
  .adcx .rbx .r11,
  .mulx (.mem 8 .rdi) .rax .rbx,
  .adox .rax .r11,
  .adcx .rbx .r12,
  .mulx (.mem 0x10 .rdi) .rax .rbx,
  .adox .rax .r12,
  .adcx .rbx .r13,
  .mulx (.mem 0x18 .rdi) .rax .rbx,
  .adox .rax .r13,
  .adcx .rbx .r14,
  .mulx (.mem 0x20 .rdi) .rax .rbx,
  .adox .rax .r14,
  .adcx .rbx .r15,
  .mulx (.mem 0x28 .rdi) .rax .rbx,
  .adox .rax .r15,
  .adox .rcx .rcx,
  .adcx .rbx .rcx]

/-- Part of `__mul_ex`: `src/arithmetic.s:1037-1061`. -/
def mul_ex_row5 : List Instr := [
  .mov (.mem 0x28 .rsi) .rdx,
  .xor .rsi .rsi,
  .mulx (.mem 0 .rdi) .rax .rbx,
  .adox .rax .r11,
  .adcx .rbx .r12,
  .mulx (.mem 8 .rdi) .rax .rbx,
  .adox .rax .r12,
  .adcx .rbx .r13,
  .mulx (.mem 0x10 .rdi) .rax .rbx,
  .adox .rax .r13,
  .adcx .rbx .r14,
  .mulx (.mem 0x18 .rdi) .rax .rbx,
  .adox .rax .r14,
  .adcx .rbx .r15,
  .mulx (.mem 0x20 .rdi) .rax .rbx,
  .adox .rax .r15,
  .adcx .rbx .rcx,
  .mulx (.mem 0x28 .rdi) .rax .rbx,
  .adox .rax .rcx,
  .adox .rbx .rsi,
  .adc (.imm 0) .rsi,
  .pop .rdi,
  .pop .rbx,
  .push .rsi]

/-- Part of `__mul_ex`: `src/arithmetic.s:1064-1064`. -/
def mul_ex_load : List Instr := [
  .xor .rax .rax]

/-- Part of `__mul_ex`: `src/arithmetic.s:1066-1097`. -/
def mul_ex_mont0 : List Instr := [
  .mov (.reg .rbx) .rdx,
  .mulx (.mem 0 .rbp) .rdx .rsi,
  .mulx (.mem 0xfffffffffffffff8 .rbp) .rax .rsi,
  .adox .rax .rbx,
  .adcx .rsi .rdi,
  .mulx (.mem 0xfffffffffffffff0 .rbp) .rax .rsi,
  .adox .rax .rdi,
  .adcx .rsi .r8,
  .mulx (.mem 0xffffffffffffffe8 .rbp) .rax .rsi,
  .adox .rax .r8,
  .adcx .rsi .r9,
  .mulx (.mem 0xffffffffffffffe0 .rbp) .rax .rsi,
  .adox .rax .r9,
  .adcx .rsi .r10,
  .mulx (.mem 0xffffffffffffffd8 .rbp) .rax .rsi,
  .adox .rax .r10,
  .adcx .rsi .r11,
  .mulx (.mem 0xffffffffffffffd0 .rbp) .rax .rsi,
  .adox .rax .r11,
  .adcx .rsi .r12,
  .adox .rbx .r12,
  .adcx .rbx .rbx,
  .mov (.imm 0) .rax,
  .adox .rax .rbx,
  .xor .rax .rax]

/-- Part of `__mul_ex`: `src/arithmetic.s:1099-1130`. -/
def mul_ex_mont1 : List Instr := [
  .mov (.reg .rdi) .rdx,
  .mulx (.mem 0 .rbp) .rdx .rsi,
  .mulx (.mem 0xfffffffffffffff8 .rbp) .rax .rsi,
  .adox .rax .rdi,
  .adcx .rsi .r8,
  .mulx (.mem 0xfffffffffffffff0 .rbp) .rax .rsi,
  .adox .rax .r8,
  .adcx .rsi .r9,
  .mulx (.mem 0xffffffffffffffe8 .rbp) .rax .rsi,
  .adox .rax .r9,
  .adcx .rsi .r10,
  .mulx (.mem 0xffffffffffffffe0 .rbp) .rax .rsi,
  .adox .rax .r10,
  .adcx .rsi .r11,
  .mulx (.mem 0xffffffffffffffd8 .rbp) .rax .rsi,
  .adox .rax .r11,
  .adcx .rsi .r12,
  .mulx (.mem 0xffffffffffffffd0 .rbp) .rax .rsi,
  .adox .rax .r12,
  .adcx .rsi .r13,
  .adox .rbx .r13,
  .adcx .rdi .rdi,
  .mov (.imm 0) .rax,
  .adox .rax .rdi,
  .xor .rax .rax]

/-- Part of `__mul_ex`: `src/arithmetic.s:1132-1163`. -/
def mul_ex_mont2 : List Instr := [
  .mov (.reg .r8) .rdx,
  .mulx (.mem 0 .rbp) .rdx .rsi,
  .mulx (.mem 0xfffffffffffffff8 .rbp) .rax .rsi,
  .adox .rax .r8,
  .adcx .rsi .r9,
  .mulx (.mem 0xfffffffffffffff0 .rbp) .rax .rsi,
  .adox .rax .r9,
  .adcx .rsi .r10,
  .mulx (.mem 0xffffffffffffffe8 .rbp) .rax .rsi,
  .adox .rax .r10,
  .adcx .rsi .r11,
  .mulx (.mem 0xffffffffffffffe0 .rbp) .rax .rsi,
  .adox .rax .r11,
  .adcx .rsi .r12,
  .mulx (.mem 0xffffffffffffffd8 .rbp) .rax .rsi,
  .adox .rax .r12,
  .adcx .rsi .r13,
  .mulx (.mem 0xffffffffffffffd0 .rbp) .rax .rsi,
  .adox .rax .r13,
  .adcx .rsi .r14,
  .adox .rdi .r14,
  .adcx .r8 .r8,
  .mov (.imm 0) .rax,
  .adox .rax .r8,
  .xor .rax .rax]

/-- Part of `__mul_ex`: `src/arithmetic.s:1165-1196`. -/
def mul_ex_mont3 : List Instr := [
  .mov (.reg .r9) .rdx,
  .mulx (.mem 0 .rbp) .rdx .rsi,
  .mulx (.mem 0xfffffffffffffff8 .rbp) .rax .rsi,
  .adox .rax .r9,
  .adcx .rsi .r10,
  .mulx (.mem 0xfffffffffffffff0 .rbp) .rax .rsi,
  .adox .rax .r10,
  .adcx .rsi .r11,
  .mulx (.mem 0xffffffffffffffe8 .rbp) .rax .rsi,
  .adox .rax .r11,
  .adcx .rsi .r12,
  .mulx (.mem 0xffffffffffffffe0 .rbp) .rax .rsi,
  .adox .rax .r12,
  .adcx .rsi .r13,
  .mulx (.mem 0xffffffffffffffd8 .rbp) .rax .rsi,
  .adox .rax .r13,
  .adcx .rsi .r14,
  .mulx (.mem 0xffffffffffffffd0 .rbp) .rax .rsi,
  .adox .rax .r14,
  .adcx .rsi .r15,
  .adox .r8 .r15,
  .adcx .r9 .r9,
  .mov (.imm 0) .rax,
  .adox .rax .r9,
  .xor .rax .rax]

/-- Part of `__mul_ex`: `src/arithmetic.s:1198-1229`. -/
def mul_ex_mont4 : List Instr := [
  .mov (.reg .r10) .rdx,
  .mulx (.mem 0 .rbp) .rdx .rsi,
  .mulx (.mem 0xfffffffffffffff8 .rbp) .rax .rsi,
  .adox .rax .r10,
  .adcx .rsi .r11,
  .mulx (.mem 0xfffffffffffffff0 .rbp) .rax .rsi,
  .adox .rax .r11,
  .adcx .rsi .r12,
  .mulx (.mem 0xffffffffffffffe8 .rbp) .rax .rsi,
  .adox .rax .r12,
  .adcx .rsi .r13,
  .mulx (.mem 0xffffffffffffffe0 .rbp) .rax .rsi,
  .adox .rax .r13,
  .adcx .rsi .r14,
  .mulx (.mem 0xffffffffffffffd8 .rbp) .rax .rsi,
  .adox .rax .r14,
  .adcx .rsi .r15,
  .mulx (.mem 0xffffffffffffffd0 .rbp) .rax .rsi,
  .adox .rax .r15,
  .adcx .rsi .rcx,
  .adox .r9 .rcx,
  .adcx .r10 .r10,
  .mov (.imm 0) .rax,
  .adox .rax .r10,
  .xor .rax .rax]

/-- Part of `__mul_ex`: `src/arithmetic.s:1231-1259`. -/
def mul_ex_mont5 : List Instr := [
  .mov (.reg .r11) .rdx,
  .mulx (.mem 0 .rbp) .rdx .rsi,
  .mulx (.mem 0xfffffffffffffff8 .rbp) .rax .rsi,
  .adox .rax .r11,
  .adcx .rsi .r12,
  .mulx (.mem 0xfffffffffffffff0 .rbp) .rax .rsi,
  .adox .rax .r12,
  .adcx .rsi .r13,
  .mulx (.mem 0xffffffffffffffe8 .rbp) .rax .rsi,
  .adox .rax .r13,
  .adcx .rsi .r14,
  .mulx (.mem 0xffffffffffffffe0 .rbp) .rax .rsi,
  .adox .rax .r14,
  .adcx .rsi .r15,
  .mulx (.mem 0xffffffffffffffd8 .rbp) .rax .rsi,
  .adox .rax .r15,
  .adcx .rsi .rcx,
  .mulx (.mem 0xffffffffffffffd0 .rbp) .rax .rsi,
  .adox .rax .rcx,
  .pop .rbx,
  .adcx .rsi .rbx,
  .adox .r10 .rbx]

/-- Part of `__mul_ex`: `src/arithmetic.s:1261-1277`. -/
def mul_ex_red : List Instr := [
  .mov (.reg .r12) .rax,
  .sub (.mem 0xfffffffffffffff8 .rbp) .rax,
  .mov (.reg .r13) .rsi,
  .sbb (.mem 0xfffffffffffffff0 .rbp) .rsi,
  .mov (.reg .r14) .rdi,
  .sbb (.mem 0xffffffffffffffe8 .rbp) .rdi,
  .mov (.reg .r15) .r8,
  .sbb (.mem 0xffffffffffffffe0 .rbp) .r8,
  .mov (.reg .rcx) .r9,
  .sbb (.mem 0xffffffffffffffd8 .rbp) .r9,
  .mov (.reg .rbx) .r10,
  .sbb (.mem 0xffffffffffffffd0 .rbp) .r10]

/-- Part of `__mul_ex`: `src/arithmetic.s:1280-1308`. -/
def mul_ex_out : List Instr := [
  .pop .r11,
  .cmovae .rax .r12,
  .store .r12 0 .r11,
  .cmovae .rsi .r13,
  .store .r13 8 .r11,
  .cmovae .rdi .r14,
  .store .r14 0x10 .r11,
  .cmovae .r8 .r15,
  .store .r15 0x18 .r11,
  .cmovae .r9 .rcx,
  .store .rcx 0x20 .r11,
  .cmovae .r10 .rbx,
  .store .rbx 0x28 .r11,
  .pop .rax,
  .pop .rax,
  .pop .rax,
  .pop .rax,
  .pop .rax,
  .pop .rax,
  .pop .rax,
  .pop .rbx,
  .pop .r12,
  .pop .r13,
  .pop .r14,
  .pop .r15,
  .pop .rbp,
  .ret]

/-- `__mul_ex`: `src/arithmetic.s:903-1308`. -/
def mul_ex : List Instr :=
  mul_ex_pre ++ (mul_ex_row0 ++ (mul_ex_row1 ++ (mul_ex_row2 ++ (mul_ex_row3 ++ (mul_ex_row4 ++ (mul_ex_row5 ++ (mul_ex_load ++ (mul_ex_mont0 ++ (mul_ex_mont1 ++ (mul_ex_mont2 ++ (mul_ex_mont3 ++ (mul_ex_mont4 ++ (mul_ex_mont5 ++ (mul_ex_red ++ (mul_ex_out)))))))))))))))

end Bls.X86.Asm
