import Verif.Model.Division
import Verif.Model.Alias

/-!
# The word loops of the division on memory (`src/scalar.cpp:51-234`)

`Model/Division.lean` gives the loops as functions on lists of words. Here they run on a memory of words at addresses in
`Nat`, with the pointers `c`, `a`, `b` of the source, so that the ranges may overlap. `n` is the number of words left.
-/

namespace Bls.Division.Mem

/-- `bn_lshb_low` (`src/scalar.cpp:51-69`). -/
def lshb (bits : Nat) : Nat → Nat → Nat → UInt64 → Heap Nat UInt64 → Heap Nat UInt64 × UInt64
  | 0, _, _, carry, m => (m, carry)
  | n + 1, c, a, carry, m =>
    let r := (m a >>> UInt64.ofNat (64 - bits)) &&& mask bits
    let m := m.put c ((m a <<< UInt64.ofNat bits) ||| carry)
    lshb bits n (c + 1) (a + 1) r m

/-- The first loop of `dv_lshd` (`src/scalar.cpp:80-83`): `n` words from `bot - 1` down to `top - 1` down. -/
def moveDown : Nat → Nat → Nat → Heap Nat UInt64 → Heap Nat UInt64
  | 0, _, _, m => m
  | n + 1, top, bot, m => moveDown n (top - 1) (bot - 1) (m.put (top - 1) (m (bot - 1)))

/-- The loop of `dv_rshd` (`src/scalar.cpp:134-137`): `n` words from `top` up to `bot` up. -/
def moveUp : Nat → Nat → Nat → Heap Nat UInt64 → Heap Nat UInt64
  | 0, _, _, m => m
  | n + 1, bot, top, m => moveUp n (bot + 1) (top + 1) (m.put bot (m top))

/-- The loops that clear words (`src/scalar.cpp:84-87`, `:138-141`). -/
def clear : Nat → Nat → Heap Nat UInt64 → Heap Nat UInt64
  | 0, _, m => m
  | n + 1, c, m => clear n (c + 1) (m.put c 0)

/-- `dv_lshd` (`src/scalar.cpp:71-88`) for `digits ≤ size`. -/
def lshd (c a size digits : Nat) (m : Heap Nat UInt64) : Heap Nat UInt64 :=
  clear digits c (moveDown (size - digits) (c + size) (a + size - digits) m)

/-- `dv_rshd` (`src/scalar.cpp:125-142`) for `digits ≤ size`. -/
def rshd (c a size digits : Nat) (m : Heap Nat UInt64) : Heap Nat UInt64 :=
  clear digits (c + (size - digits)) (moveUp (size - digits) c (a + digits) m)

/-- `bn_subn_low` (`src/scalar.cpp:108-123`). -/
def subn : Nat → Nat → Nat → Nat → UInt64 → Heap Nat UInt64 → Heap Nat UInt64 × UInt64
  | 0, _, _, _, carry, m => (m, carry)
  | n + 1, c, a, b, carry, m =>
    let diff := m a - m b
    let r0 := diff - carry
    let carry := if m a < m b ∨ (carry ≠ 0 ∧ diff = 0) then 1 else 0
    let m := m.put c r0
    subn n (c + 1) (a + 1) (b + 1) carry m

/-- `bn_mul1_low` (`src/scalar.cpp:144-155`). -/
def mul1 (digit : UInt64) : Nat → Nat → Nat → UInt64 → Heap Nat UInt64 → Heap Nat UInt64 × UInt64
  | 0, _, _, carry, m => (m, carry)
  | n + 1, c, a, carry, m =>
    let (r1, _) := mul64 (m a) digit
    let r0 := m a * digit
    let m := m.put c (r0 + carry)
    let carry := r1 + (if m c < carry then 1 else 0)
    mul1 digit n (c + 1) (a + 1) carry m

/-- `bn_sub1_low` (`src/scalar.cpp:157-174`); the second loop copies. -/
def sub1 : Nat → Nat → Nat → UInt64 → Heap Nat UInt64 → Heap Nat UInt64 × UInt64
  | 0, _, _, carry, m => (m, carry)
  | n + 1, c, a, carry, m =>
    if carry = 0 then (moveUp (n + 1) c a m, 0)
    else
      let r0 := m a - carry
      let carry := if r0 > m a then 1 else 0
      let m := m.put c r0
      sub1 n (c + 1) (a + 1) carry m

/-- `bn_addn_low` (`src/scalar.cpp:176-192`). -/
def addn : Nat → Nat → Nat → Nat → UInt64 → Heap Nat UInt64 → Heap Nat UInt64 × UInt64
  | 0, _, _, _, carry, m => (m, carry)
  | n + 1, c, a, b, carry, m =>
    let r0 := m a + m b
    let c0 : UInt64 := if r0 < m a then 1 else 0
    let r1 := r0 + carry
    let c1 : UInt64 := if r1 < r0 then 1 else 0
    let m := m.put c r1
    addn n (c + 1) (a + 1) (b + 1) (c0 ||| c1) m

/-- `bn_add1_low` (`src/scalar.cpp:194-211`); the second loop copies. -/
def add1 : Nat → Nat → Nat → UInt64 → Heap Nat UInt64 → Heap Nat UInt64 × UInt64
  | 0, _, _, carry, m => (m, carry)
  | n + 1, c, a, carry, m =>
    if carry = 0 then (moveUp (n + 1) c a m, 0)
    else
      let r0 := m a + carry
      let carry := if r0 < carry then 1 else 0
      let m := m.put c r0
      add1 n (c + 1) (a + 1) carry m

/-- `bn_rshb_low` (`src/scalar.cpp:213-234`): `n` words, the highest at `c - 1` and `a - 1`. -/
def rshb (bits : Nat) : Nat → Nat → Nat → UInt64 → Heap Nat UInt64 → Heap Nat UInt64 × UInt64
  | 0, _, _, carry, m => (m, carry)
  | n + 1, c, a, carry, m =>
    let r := m (a - 1) &&& mask bits
    let m := m.put (c - 1) ((m (a - 1) >>> UInt64.ofNat bits) ||| (carry <<< UInt64.ofNat ((64 - bits) % 64)))
    rshb bits n (c - 1) (a - 1) r m

end Bls.Division.Mem
