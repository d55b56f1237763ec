import Verif.Model.AsmCode

/-!
# Calling the assembly routines

`fp*` arguments are addresses of six consecutive words.
-/

namespace Bls.X86

/-- The six words at address `a`: `fp::d` (`include/bls12-381/fp.hpp:31`). -/
def readFp (m : UInt64 → UInt64) (a : UInt64) : Fp :=
  ⟨m (a + 0), m (a + 8), m (a + 0x10), m (a + 0x18), m (a + 0x20), m (a + 0x28)⟩

/-- Memory after storing the six words of `fp::d` (`include/bls12-381/fp.hpp:31`) at address `a`. -/
def writeFp (m : UInt64 → UInt64) (a : UInt64) (v : Fp) : UInt64 → UInt64 :=
  memSet (memSet (memSet (memSet (memSet (memSet m (a + 0) v.d0) (a + 8) v.d1) (a + 0x10) v.d2)
    (a + 0x18) v.d3) (a + 0x20) v.d4) (a + 0x28) v.d5

/-- The state at entry of a routine (`src/arithmetic.s:4-7`): System V arguments `z` in `%rdi`, `x` in `%rsi`, `y` in `%rdx`; every
other register and the flags are arbitrary (`junk`). -/
def entry (junk : Cpu) (z x y : UInt64) : Cpu :=
  { junk with rdi := z, rsi := x, rdx := y, stk := [] }

/-- A fixed entry state with `x` at address 0x100 and `y` at address 0x200; the call is that of `fp::add` (`src/fp.cpp:107-112`). -/
def callState (x y : Fp) : Cpu :=
  entry ⟨0, 0, 0, 0, 0, 0, 0, 0, 0, 0, 0, 0, 0, 0, 0, false, false, [],
    writeFp (writeFp (fun _ => 0) 0x200 y) 0x100 x⟩ 0x300 0x100 0x200

/-- The value a routine stores in a fresh destination object (the by-value functions `fp::add` etc. of
`src/fp.cpp:107-172` declare a fresh `fp c` and pass its address). `none` is undefined behaviour. -/
def call (code : List Instr) (x y : Fp) : Option Fp :=
  (run code (callState x y)).map fun s => readFp s.mem 0x300

end Bls.X86
