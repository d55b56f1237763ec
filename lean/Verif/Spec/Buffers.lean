import Verif.Spec.Hash

/-!
# Buffers in one memory

A memory is a function from addresses to bytes.
-/

namespace Bls.Rfc

/-- The `n` bytes from address `a` on. -/
def bytes (f : ℕ → UInt8) (a n : ℕ) : List UInt8 := (List.range n).map fun i => f (a + i)

/-- From `f` to `f'` the bytes from `a` on have become `v` and no other byte has changed. -/
def Wrote (f f' : ℕ → UInt8) (a : ℕ) (v : List UInt8) : Prop :=
  bytes f' a v.length = v ∧ ∀ x, x < a ∨ a + v.length ≤ x → f' x = f x

/-- The ranges of `n` bytes from `a` and of `k` bytes from `b` have no address in common. -/
def Apart (a n b k : ℕ) : Prop := ∀ x, a ≤ x → x < a + n → b ≤ x → x < b + k → False

end Bls.Rfc
