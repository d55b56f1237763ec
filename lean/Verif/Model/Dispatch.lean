import Verif.Model.X86Ops
import Verif.Model.Bytes

/-!
# Choice of the multiplication routine

At load time `_multiply` is bound to one of two assembly routines. The inputs are the answers of the instruction
`cpuid`, and the stack of the process as the kernel leaves it (argument count, argument pointers, null, environment
pointers, null).
-/

namespace Bls.Dispatch

/-- The answers of `cpuid` (`src/arithmetic.cpp:156`, `:159`): leaf and subleaf to `eax`, `ebx`, `ecx`, `edx`. -/
abbrev Cpuid := UInt32 → UInt32 → UInt32 × UInt32 × UInt32 × UInt32

/-- Byte-granular memory of the process; the resolver (`src/arithmetic.cpp:147-195`) reads the environment in it. -/
abbrev Memory := UInt64 → UInt8

/-- `cpu_has_bmi2_and_adx` (`src/arithmetic.cpp:153-164`). The words are stored in `int32_t`, so the comparison with
7 is signed. -/
def cpuHas (cpuid : Cpuid) : Bool :=
  let nIds := (cpuid 0 0).1.toInt32
  if (7 : Int32) ≤ nIds then
    let ebx := (cpuid 7 0).2.1
    ebx &&& ((1 : UInt32) <<< 8) != 0 && ebx &&& ((1 : UInt32) <<< 19) != 0
  else false

/-- A pointer read from memory (`src/arithmetic.cpp:172-176`); little endian. -/
def load64 (mem : Memory) (a : UInt64) : UInt64 :=
  Scalar.leWord (mem a) (mem (a + 1)) (mem (a + 2)) (mem (a + 3)) (mem (a + 4)) (mem (a + 5)) (mem (a + 6)) (mem (a + 7))

/-- An `int` read from memory (`src/arithmetic.cpp:170`). -/
def load32 (mem : Memory) (a : UInt64) : Int32 :=
  ((mem a).toUInt32 ||| (mem (a + 1)).toUInt32 <<< 8 ||| (mem (a + 2)).toUInt32 <<< 16 |||
    (mem (a + 3)).toUInt32 <<< 24).toInt32

/-- `disable_str` without the terminator (`src/arithmetic.cpp:173`): `BLS_DISABLE_BMI2`. -/
def disableStr : List UInt8 := [66, 76, 83, 95, 68, 73, 83, 65, 66, 76, 69, 95, 66, 77, 73, 50]

/-- `strncmp(s, lit, n) == 0` (`src/arithmetic.cpp:174`); the terminator of the literal is implicit. The comparison
stops at the first difference, at a terminator, or after `n` bytes. -/
def strncmpEq (mem : Memory) (s : UInt64) : List UInt8 → Nat → Bool
  | _, 0 => true
  | [], _ + 1 => mem s == 0
  | c :: cs, n + 1 => if mem s != c then false else if c == 0 then true else strncmpEq mem (s + 1) cs n

/-- The loop over the environment (`src/arithmetic.cpp:172-176`): `some true` if a string matched, `some false` if the
null pointer was reached first, `none` if neither happened within `fuel` rounds. -/
def envLoop (mem : Memory) : Nat → UInt64 → Option Bool
  | 0, _ => none
  | fuel + 1, env =>
    if load64 mem env != 0 then
      if strncmpEq mem (load64 mem env) disableStr disableStr.length then some true
      else envLoop mem fuel (env + 8)
    else some false

/-- `resolve_blsmul` (`src/arithmetic.cpp:169-181`) with `_dl_argv = argv`; `true` is `__mul_ex`, `false` is
`__multiply`. `argc` is sign extended in the pointer arithmetic. -/
def resolve (fuel : Nat) (cpuid : Cpuid) (mem : Memory) (argv : UInt64) : Option Bool :=
  let argc := load32 mem (argv - 8)
  let env := argv + 8 * argc.toInt64.toUInt64 + 8
  (envLoop mem fuel env).map fun disabled => if disabled then false else cpuHas cpuid

/-- The function pointer of builds without `ifunc` (`src/arithmetic.cpp:185-193`): its value before and after the
constructor of `the_bls_mul_init` has run. -/
def pointer (cpuid : Cpuid) (constructed : Bool) : Bool :=
  let initial := false
  if constructed then (if cpuHas cpuid then true else initial) else initial

/-- The routine bound to `_multiply` (`src/arithmetic.cpp:175-180`, `src/arithmetic.s:279-1308`). -/
def routine (ex : Bool) : List X86.Instr := if ex then X86.Asm.mul_ex else X86.Asm.multiply

end Bls.Dispatch
