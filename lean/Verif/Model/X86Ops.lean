import Verif.Model.X86Call

/-!
# The base-field operations of an x86-64 build

Each function runs the corresponding instruction list of `src/arithmetic.s` on a fixed placement of its
operands (`X86.call`) and reads the destination back. `Props/X86.lean` (C05) proves that every other placement,
including a destination that aliases an operand, gives the same words. An undefined run would read as zero;
`X86.call_eq` shows that it does not happen.
-/

namespace Bls.X86

/-- Words returned by a call, such as `_add(&c, this, &e)` (`src/fp.cpp:107-112`). -/
def result (code : List Instr) (x y : Fp) : Fp := (call code x y).getD ⟨0, 0, 0, 0, 0, 0⟩

/-- `_add` (`src/arithmetic.s:7-60`); `fp::add` (`src/fp.cpp:107`), `fp::addAssign` (`:114`). -/
def add (x y : Fp) : Fp := result Asm.add x y

/-- `_ladd` (`src/arithmetic.s:66-85`). -/
def ladd (x y : Fp) : Fp := result Asm.ladd x y

/-- `_double` (`src/arithmetic.s:91-144`); `fp::dbl` (`src/fp.cpp:119`), `fp::doubleAssign` (`:126`). The
second argument register is not read. -/
def dbl (x : Fp) : Fp := result Asm.double x x

/-- `_ldouble` (`src/arithmetic.s:150-169`). -/
def ldbl (x : Fp) : Fp := result Asm.ldouble x x

/-- `_subtract` (`src/arithmetic.s:175-223`); `fp::subtract` (`src/fp.cpp:131`), `fp::subtractAssign` (`:138`). -/
def sub (x y : Fp) : Fp := result Asm.subtract x y

/-- `_lsubtract` (`src/arithmetic.s:229-248`). -/
def lsub (x y : Fp) : Fp := result Asm.lsubtract x y

/-- `_negate`, x86-64 branch (`src/arithmetic.cpp:118-129`): zero is copied, otherwise `__negate`
(`src/arithmetic.s:254-273`); `fp::negate` (`src/fp.cpp:143`). -/
def neg (x : Fp) : Fp := if x.isZero then x else result Asm.negate x x

/-- `_multiply` (`src/arithmetic.cpp:147-195`): `__mul_ex` (`src/arithmetic.s:903-1308`) when the resolver found
BMI2 and ADX (`adx = true`), `__multiply` (`src/arithmetic.s:279-897`) otherwise. The resolver itself (CPUID and
the environment) is represented by the Boolean. `fp::multiply` (`src/fp.cpp:150`). -/
def mul (adx : Bool) (x y : Fp) : Fp := result (if adx then Asm.mul_ex else Asm.multiply) x y

/-- `_square`, x86-64 branch (`src/arithmetic.cpp:319-323`): always `__multiply(z, x, x)`; `fp::square`
(`src/fp.cpp:162`). -/
def sqr (x : Fp) : Fp := result Asm.multiply x x

end Bls.X86
