import Verif.Model.X86
import Mathlib.Data.Nat.Notation

/-!
# Processor features and the stack of a new process

Independent of the resolver. The features are those of the Intel manual: the highest basic leaf is `eax` of leaf 0,
BMI2 is bit 8 and ADX bit 19 of `ebx` of leaf 7; `mulx` belongs to BMI2, `adcx` and `adox` to ADX. The stack is that of
the System V ABI.
-/

namespace Bls.Process

/-- What a processor offers beyond the base instruction set. -/
structure Features where
  bmi2 : Bool
  adx : Bool

/-- The features announced by `cpuid`. -/
def announced (cpuid : UInt32 → UInt32 → UInt32 × UInt32 × UInt32 × UInt32) : Features where
  bmi2 := decide (7 ≤ (cpuid 0 0).1.toNat) && (cpuid 7 0).2.1.toNat.testBit 8
  adx := decide (7 ≤ (cpuid 0 0).1.toNat) && (cpuid 7 0).2.1.toNat.testBit 19

/-- The instruction exists on a processor with these features. -/
def Features.has (f : Features) : X86.Instr → Bool
  | .mulx .. => f.bmi2
  | .adcx .. => f.adx
  | .adox .. => f.adx
  | _ => true

/-- Execution on a processor: an instruction that does not exist stops it (`none`). -/
def run (f : Features) : List X86.Instr → X86.Cpu → Option X86.Cpu
  | [], s => some s
  | i :: is, s => if f.has i then (X86.step i s).bind (run f is) else none

/-- The bytes at address `a` begin with `bs`. -/
def Bytes (mem : UInt64 → UInt8) (a : UInt64) (bs : List UInt8) : Prop :=
  ∀ i (h : i < bs.length), mem (a + UInt64.ofNat i) = bs[i]

/-- The `n` bytes of an integer, lowest first. -/
def littleEndian (v n : ℕ) : List UInt8 := (List.range n).map fun i => UInt8.ofNat (v / 256 ^ i)

/-- A table of pointers to the strings `ss` at address `a`, ended by a null pointer. The strings do not contain a zero
byte and are ended by one. -/
def Table (mem : UInt64 → UInt8) (a : UInt64) (ss : List (List UInt8)) : Prop :=
  (∀ i (h : i < ss.length), ∃ ptr : UInt64, ptr ≠ 0 ∧
    Bytes mem (a + 8 * UInt64.ofNat i) (littleEndian ptr.toNat 8) ∧ 0 ∉ ss[i] ∧ Bytes mem ptr (ss[i] ++ [0])) ∧
  Bytes mem (a + 8 * UInt64.ofNat ss.length) (littleEndian 0 8)

/-- The stack of a new process: the number of arguments, the table of the arguments at `argv`, the table of the
environment. -/
structure Stack (mem : UInt64 → UInt8) (argv : UInt64) (args env : List (List UInt8)) : Prop where
  few : args.length < 2 ^ 31
  count : Bytes mem (argv - 8) (littleEndian args.length 8)
  arguments : Table mem argv args
  environment : Table mem (argv + 8 * UInt64.ofNat (args.length + 1)) env

end Bls.Process
