import Verif.Proof.FpConv

/-!
# C01, C02, C05, C06: x86-64 base-field arithmetic
-/

namespace Bls.Props

/-- C01: on both dispatch paths every operation on canonical elements is exact on the represented residues. -/
theorem C01_arithmetic (adx : Bool) (x y : Fp) (a b : ZMod p) (hx : x.Rep a) (hy : y.Rep b) :
    (X86.add x y).Rep (a + b) ∧ (X86.sub x y).Rep (a - b) ∧ (X86.neg x).Rep (-a) ∧
    (X86.dbl x).Rep (2 * a) ∧ (X86.mul adx x y).Rep (a * b) ∧ (X86.sqr x).Rep (a ^ 2) :=
  ⟨X86.rep_add hx hy, X86.rep_sub hx hy, X86.rep_neg hx, by rw [two_mul]; exact X86.rep_dbl hx,
    X86.rep_mul hx hy, by rw [sq]; exact X86.rep_sqr hx⟩

/-- `1 + 1`, `1 - 1`, … -/
example (adx : Bool) : (X86.add Fp.R1 Fp.R1).Rep (1 + 1) ∧ (X86.neg Fp.R1).Rep (-1) ∧ (X86.mul adx Fp.R1 Fp.R1).Rep (1 * 1) := by
  obtain ⟨h1, -, h2, -, h3, -⟩ := C01_arithmetic adx _ _ _ _ Fp.R1_rep Fp.R1_rep
  exact ⟨h1, h2, h3⟩

/-- C01: every canonical array represents one residue and every residue has one canonical array, so the
previous statement covers all canonical inputs. -/
theorem C01_rep_bijective : (∀ x : Fp, x.Valid → ∃! a, x.Rep a) ∧ (∀ a : ZMod p, ∃! x : Fp, x.Rep a) := by
  refine ⟨fun x hx => ⟨_, Fp.rep_of_valid hx, fun b hb => hb.unique (Fp.rep_of_valid hx)⟩, fun a => ?_⟩
  have : NeZero p := ⟨by decide +kernel⟩
  let z : Fp := ⟨UInt64.ofNat a.val, UInt64.ofNat (a.val / 2 ^ 64), UInt64.ofNat (a.val / 2 ^ 128),
    UInt64.ofNat (a.val / 2 ^ 192), UInt64.ofNat (a.val / 2 ^ 256), UInt64.ofNat (a.val / 2 ^ 320)⟩
  have hz : z.val = a.val := by
    have h : a.val < p := ZMod.val_lt a
    have := X86.p_lt
    simp only [z, Fp.val, UInt64.toNat_ofNat']
    generalize a.val = n at *
    omega
  have hr : (z.toMont false).Rep a := by
    have := Fp.toMont_rep false z
    rwa [hz, ZMod.natCast_zmod_val] at this
  exact ⟨_, hr, fun w hw => hw.inj hr⟩

example : (Fp.R1).Rep 1 ∧ MODULUS.val ≠ 0 := ⟨Fp.R1_rep, by decide +kernel⟩

/-- C02: the two multiplication routines store the same words for *all* operands, in particular for all with
`x*y < 2^384*p`. -/
theorem C02_dispatch (x y : Fp) : X86.mul false x y = X86.mul true x y :=
  Fp.val_inj (by rw [X86.mul_val, X86.mul_val])

/-- C02: lazily added or doubled operands are still multiplied exactly: in the documented range the product is
canonical and correct. -/
theorem C02_lazy (adx : Bool) (x y : Fp) (h : x.val * y.val < 2 ^ 384 * p) :
    (X86.mul adx x y).val < p ∧ 2 ^ 384 * (X86.mul adx x y).val % p = x.val * y.val % p := by
  rw [X86.mul_val]; exact X86.redc_spec h

/-- `(2 p) * (p + 1)`. -/
example (adx : Bool) : (X86.mul adx ⟨0x73fdffffffff5556, 0x3d57fffd62a7ffff, 0xce61a541ed61ec48, 0xc8ee9709e70a257e,
    0x96374f6c869759ae, 0x340223d472ffcd34⟩ ⟨0xb9feffffffffaaac, 0x1eabfffeb153ffff, 0x6730d2a0f6b0f624, 0x64774b84f38512bf,
    0x4b1ba7b6434bacd7, 0x1a0111ea397fe69a⟩).val < p := (C02_lazy adx _ _ (by decide +kernel)).1

/-- All operands below `3p` are in the range. -/
theorem C02_three_p (x y : Fp) (hx : x.val < 3 * p) (hy : y.val < 3 * p) :
    x.val * y.val < 2 ^ 384 * p := by
  have h : 3 * p * (3 * p) ≤ 2 ^ 384 * p := by decide +kernel
  exact lt_of_lt_of_le (Nat.mul_lt_mul'' hx hy) h

example : (⟨0x73fdffffffff5556, 0x3d57fffd62a7ffff, 0xce61a541ed61ec48, 0xc8ee9709e70a257e, 0x96374f6c869759ae, 0x340223d472ffcd34⟩ : Fp).val *
    (⟨5, 0, 0, 0, 0, 0x4000000000000000⟩ : Fp).val < 2 ^ 384 * p := C02_three_p _ _ (by decide +kernel) (by decide +kernel)

/-- The comment in `include/bls12-381/arithmetic.hpp:26-30` allows operands "around 4p"; at `4p - 1` the product is
no longer below the bound and the stored result is not canonical. -/
theorem C02_four_p_false : ¬ ∀ x y : Fp, x.val < 4 * p → y.val < 4 * p → (X86.mul false x y).val < p := by
  intro h
  have := h ⟨0xe7fbfffffffeaaab, 0x7aaffffac54ffffe, 0x9cc34a83dac3d890,
    0x91dd2e13ce144afd, 0x2c6e9ed90d2eb35d, 0x680447a8e5ff9a69⟩
    ⟨0xe7fbfffffffeaaaa, 0x7aaffffac54ffffe, 0x9cc34a83dac3d890,
    0x91dd2e13ce144afd, 0x2c6e9ed90d2eb35d, 0x680447a8e5ff9a69⟩ (by decide +kernel) (by decide +kernel)
  rw [X86.mul_val] at this
  revert this
  decide +kernel

/-- C05: from any entry state (any register contents and flags, any addresses, in particular a destination
that equals one or both operands) each routine terminates without undefined behaviour, stores exactly the value
its by-value version computes from the operands' words before the call, changes no other word of memory, and
returns with the callee-saved registers and the stack pointer unchanged. -/
theorem C05_placement (code : List X86.Instr)
    (hc : code ∈ [X86.Asm.add, X86.Asm.ladd, X86.Asm.double, X86.Asm.ldouble, X86.Asm.subtract,
      X86.Asm.lsubtract, X86.Asm.negate, X86.Asm.multiply, X86.Asm.mul_ex])
    (s : X86.Cpu) (hs : s.stk = []) : ∃ s', X86.run code s = some s' ∧
      (∀ x y, x = X86.readFp s.mem s.rsi → y = X86.readFp s.mem s.rdx →
        X86.call code x y = some (X86.readFp s'.mem s.rdi)) ∧
      (∀ a, a ∉ [s.rdi, s.rdi + 8, s.rdi + 16, s.rdi + 24, s.rdi + 32, s.rdi + 40] → s'.mem a = s.mem a) ∧
      s'.rbx = s.rbx ∧ s'.rbp = s.rbp ∧ s'.r12 = s.r12 ∧ s'.r13 = s.r13 ∧ s'.r14 = s.r14 ∧
      s'.r15 = s.r15 ∧ s'.stk = s.stk := by
  have key : ∃ f, X86.Computes code f := by
    simp only [List.mem_cons, List.not_mem_nil, or_false] at hc
    rcases hc with rfl | rfl | rfl | rfl | rfl | rfl | rfl | rfl | rfl
    exacts [⟨_, X86.add_wp⟩, ⟨_, X86.ladd_wp⟩, ⟨_, X86.double_wp⟩, ⟨_, X86.ldouble_wp⟩, ⟨_, X86.subtract_wp⟩,
      ⟨_, X86.lsubtract_wp⟩, ⟨_, X86.negate_wp⟩, ⟨_, X86.multiply_wp⟩, ⟨_, X86.mul_ex_wp⟩]
  obtain ⟨f, hf⟩ := key
  obtain ⟨s', hr, hm, hregs⟩ := X86.returns_of_computes hf s hs
  refine ⟨s', hr, ?_, ?_, ?_⟩
  · rintro x y rfl rfl
    rw [hm, X86.readFp_writeFp]
    exact (X86.call_eq hf _ _).1
  · intro a ha
    simp only [List.mem_cons, List.not_mem_nil, or_false, not_or] at ha
    rw [hm]
    simp [X86.writeFp, X86.memSet, ha]
  · rw [hs]; exact hregs

/-- An aliased call: `_add(z, z, z)`. -/
example : ∃ s : X86.Cpu, s.stk = [] ∧ s.rdi = s.rsi ∧ s.rsi = s.rdx ∧ X86.readFp s.mem s.rsi = Fp.R1 :=
  ⟨X86.entry ⟨0, 0, 0, 0, 0, 0, 0, 0, 0, 0, 0, 0, 0, 0, 0, false, true, [],
    X86.writeFp (fun _ => 7) 0x40 Fp.R1⟩ 0x40 0x40 0x40, rfl, rfl, rfl, X86.readFp_writeFp _ _ _⟩

/-- C06: the two conversions are inverse to each other on canonical arrays. -/
theorem C06_roundtrip (adx : Bool) (x : Fp) (hx : x.Valid) :
    (x.toMont adx).fromMont adx = x ∧ (x.fromMont adx).toMont adx = x := by
  constructor
  · apply Fp.val_inj
    obtain ⟨h1, h2⟩ := Fp.fromMont_spec adx (Fp.toMont_rep adx x)
    rw [ZMod.natCast_eq_natCast_iff, Nat.ModEq, Nat.mod_eq_of_lt h1, Nat.mod_eq_of_lt hx] at h2
    exact h2
  · have h := Fp.rep_of_valid hx
    refine Fp.Rep.inj (Fp.toMont_rep adx _) ?_
    rw [(Fp.fromMont_spec adx h).2]
    exact h

example (adx : Bool) : (Fp.R2.toMont adx).fromMont adx = Fp.R2 := (C06_roundtrip adx _ (by decide +kernel)).1

/-- C06: `toMont` of any six words is canonical and represents that integer modulo `p`. -/
theorem C06_toMont (adx : Bool) (x : Fp) : (x.toMont adx).Rep (x.val : ZMod p) := Fp.toMont_rep adx x

/-- C06: `fromMont` yields the least integer in the represented class. -/
theorem C06_fromMont (adx : Bool) (x : Fp) (a : ZMod p) (hx : x.Rep a) : (x.fromMont adx).val = a.val :=
  Fp.fromMont_val adx hx

example : Fp.R2.Valid ∧ ¬ (⟨0xffffffffffffffff, 0, 0, 0, 0, 0xffffffffffffffff⟩ : Fp).Valid :=
  ⟨by decide +kernel, by decide +kernel⟩

end Bls.Props
