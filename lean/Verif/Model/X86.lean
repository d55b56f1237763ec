import Verif.Model.Limbs

/-!
# A small x86-64 machine

The instruction forms used by `src/arithmetic.s` (AT&T operand order: source first).

Simplifications, stated here once:
* caller-visible memory is word granular: `mem a` is the 64-bit word at byte address `a`
  (all `fp` objects are 8-byte aligned arrays of `uint64_t`);
* the routine's own stack frame is a separate segment `stk` (top first, empty on entry): by the ABI
  it does not overlap the operands. The stack pointer on entry has segment address 0, so `%rsp` is
  `-8 * length`; `%rbp` is only ever used as a stack-segment base, as in the source;
* flags other than CF and OF are never read by the code and are not kept;
* popping an empty frame, reading a slot outside the frame, or returning with a non-empty frame is the
  undefined outcome `none`.
-/

namespace Bls.X86

/-- The general purpose registers used in `src/arithmetic.s` (`:7-1311`; `%rsp` is implicit in `stk`). -/
inductive Reg
  | rax | rbx | rcx | rdx | rsi | rdi | rbp | r8 | r9 | r10 | r11 | r12 | r13 | r14 | r15
deriving DecidableEq, Repr

/-- Machine state of a run of `src/arithmetic.s:7-1311`. -/
structure Cpu where
  rax : UInt64
  rbx : UInt64
  rcx : UInt64
  rdx : UInt64
  rsi : UInt64
  rdi : UInt64
  rbp : UInt64
  r8 : UInt64
  r9 : UInt64
  r10 : UInt64
  r11 : UInt64
  r12 : UInt64
  r13 : UInt64
  r14 : UInt64
  r15 : UInt64
  cf : Bool
  of : Bool
  stk : List UInt64
  mem : UInt64 → UInt64

/-- The register operand, as `%r15` in `push %r15` (`src/arithmetic.s:8`). -/
def Cpu.get (s : Cpu) : Reg → UInt64
  | .rax => s.rax | .rbx => s.rbx | .rcx => s.rcx | .rdx => s.rdx | .rsi => s.rsi | .rdi => s.rdi
  | .rbp => s.rbp | .r8 => s.r8 | .r9 => s.r9 | .r10 => s.r10 | .r11 => s.r11 | .r12 => s.r12
  | .r13 => s.r13 | .r14 => s.r14 | .r15 => s.r15

/-- The register destination, as `%r8` in `mov (%rsi),%r8` (`src/arithmetic.s:13`). -/
def Cpu.set (s : Cpu) (r : Reg) (v : UInt64) : Cpu :=
  match r with
  | .rax => { s with rax := v } | .rbx => { s with rbx := v } | .rcx => { s with rcx := v }
  | .rdx => { s with rdx := v } | .rsi => { s with rsi := v } | .rdi => { s with rdi := v }
  | .rbp => { s with rbp := v } | .r8 => { s with r8 := v } | .r9 => { s with r9 := v }
  | .r10 => { s with r10 := v } | .r11 => { s with r11 := v } | .r12 => { s with r12 := v }
  | .r13 => { s with r13 := v } | .r14 => { s with r14 := v } | .r15 => { s with r15 := v }

/-- Source operands: register (`src/arithmetic.s:32`), immediate (`:31`), or `disp(base)` (`:14`). -/
inductive Opd
  | reg (r : Reg)
  | imm (v : UInt64)
  | mem (disp : UInt64) (base : Reg)
deriving Repr

/-- Instructions of `src/arithmetic.s:7-1311`; operands in AT&T order. -/
inductive Instr
  | push (r : Reg)
  | pop (r : Reg)
  | mov (src : Opd) (dst : Reg)
  | movRsp (dst : Reg)
  | store (src : Reg) (disp : UInt64) (base : Reg)
  | add (src : Opd) (dst : Reg)
  | adc (src : Opd) (dst : Reg)
  | sub (src : Opd) (dst : Reg)
  | sbb (src : Opd) (dst : Reg)
  | adcx (src : Reg) (dst : Reg)
  | adox (src : Reg) (dst : Reg)
  | mul (src : Opd)
  | mulx (src : Opd) (lo hi : Reg)
  | xor (src dst : Reg)
  | cmovae (src dst : Reg)
  | ret
deriving Repr

/-- The stack slot at segment address `a` (slot `k` from the bottom is at `-8*(k+1)`), as `mulq (%rbp)` reads it
(`src/arithmetic.s:550`). -/
def stkRead (stk : List UInt64) (a : UInt64) : Option UInt64 :=
  stk.reverse[((0 - a) / 8).toNat - 1]?

/-- The value of a source operand (`src/arithmetic.s:13`, `:31`, `:32`, `:550`). -/
def Cpu.read (s : Cpu) : Opd → Option UInt64
  | .reg r => some (s.get r)
  | .imm v => some v
  | .mem d .rbp => stkRead s.stk (s.rbp + d)
  | .mem d b => some (s.mem (s.get b + d))

/-- `a + b + c` as a word, and the carry out: `add`, `adc`, `adcx`, `adox` (`src/arithmetic.s:19-20`, `:937`, `:951`). -/
def addWord (a b : UInt64) (c : Bool) : UInt64 × Bool :=
  let t := a.toNat + b.toNat + c.toNat
  (UInt64.ofNat t, decide (2 ^ 64 ≤ t))

/-- `a - b - c` as a word, and the borrow out: `sub`, `sbb` (`src/arithmetic.s:32`, `:34`). -/
def subWord (a b : UInt64) (c : Bool) : UInt64 × Bool :=
  (UInt64.ofNat (2 ^ 64 + a.toNat - b.toNat - c.toNat), decide (a.toNat < b.toNat + c.toNat))

/-- The sign bit, for the overflow flag that `adox` reads (`src/arithmetic.s:951`). -/
def msb (a : UInt64) : Bool := decide (2 ^ 63 ≤ a.toNat)

/-- Memory update of one word, as by `mov %r8,(%rdi)` (`src/arithmetic.s:49`). -/
def memSet (m : UInt64 → UInt64) (a v : UInt64) : UInt64 → UInt64 := fun b => if b = a then v else m b

/-- One instruction of `src/arithmetic.s:7-1311`. Flag behaviour follows the Intel manual: `add/adc/sub/sbb` set CF and OF, `mul` sets
both to "high half is not zero", `adcx` touches only CF, `adox` only OF, `mulx`, `mov`, `push`, `pop`
and `cmov` touch none, `xor` clears both. -/
def step (i : Instr) (s : Cpu) : Option Cpu :=
  match i with
  | .push r => some { s with stk := s.get r :: s.stk }
  | .pop r =>
    match s.stk with
    | [] => none
    | v :: rest => some ({ s with stk := rest }.set r v)
  | .mov src dst => (s.read src).map fun a => s.set dst a
  | .movRsp dst => some (s.set dst (0 - 8 * UInt64.ofNat s.stk.length))
  | .store src d b => some { s with mem := memSet s.mem (s.get b + d) (s.get src) }
  | .add src dst => (s.read src).map fun a =>
      let r := addWord (s.get dst) a false
      { s.set dst r.1 with
        cf := r.2
        of := msb (s.get dst) == msb a && msb r.1 != msb a }
  | .adc src dst => (s.read src).map fun a =>
      let r := addWord (s.get dst) a s.cf
      { s.set dst r.1 with
        cf := r.2
        of := msb (s.get dst) == msb a && msb r.1 != msb a }
  | .sub src dst => (s.read src).map fun a =>
      let r := subWord (s.get dst) a false
      { s.set dst r.1 with
        cf := r.2
        of := msb (s.get dst) != msb a && msb r.1 != msb (s.get dst) }
  | .sbb src dst => (s.read src).map fun a =>
      let r := subWord (s.get dst) a s.cf
      { s.set dst r.1 with
        cf := r.2
        of := msb (s.get dst) != msb a && msb r.1 != msb (s.get dst) }
  | .adcx src dst =>
      let r := addWord (s.get dst) (s.get src) s.cf
      some { s.set dst r.1 with cf := r.2 }
  | .adox src dst =>
      let r := addWord (s.get dst) (s.get src) s.of
      some { s.set dst r.1 with of := r.2 }
  | .mul src => (s.read src).map fun a =>
      let r := mul64 s.rax a
      { s with rax := r.2, rdx := r.1, cf := r.1 != 0, of := r.1 != 0 }
  | .mulx src lo hi => (s.read src).map fun a =>
      let r := mul64 s.rdx a
      (s.set lo r.2).set hi r.1
  | .xor src dst => some { s.set dst (s.get dst ^^^ s.get src) with cf := false, of := false }
  | .cmovae src dst => some (s.set dst (bif s.cf then s.get dst else s.get src))
  | .ret => if s.stk.isEmpty then some s else none

/-- Straight-line execution: the routines (`src/arithmetic.s:7-60` and so on to `:1308`) have no jumps. -/
def run : List Instr → Cpu → Option Cpu
  | [], s => some s
  | i :: is, s => (step i s).bind (run is)

end Bls.X86
