import Verif.Model.Limbs

/-!
# `std::array<uint64_t, N>` scalars

An array of `N` words is a `List UInt64` of length `N`, least significant word first. Every loop of
`include/bls12-381/scalar.hpp` over `i = 0 … N-1` or `N-1 … 0` becomes a recursion on the list.
-/

namespace Bls.Scalar

/-- `std::countl_zero` on a 64-bit word (C++20 `<bit>`, called in `include/bls12-381/scalar.hpp:189`): 64 for zero, otherwise 63 minus
the index of the top set bit. -/
def countlZero (x : UInt64) : Nat := if x = 0 then 64 else 63 - x.toNat.log2

/-- `scalar::bitLength` (`include/bls12-381/scalar.hpp:182-193`). The loop runs from the top word down; here
the recursion descends to the top first and a non-zero answer from above wins. `base` is the index `i` of the
head word. -/
def bitLengthFrom : Nat → List UInt64 → Nat
  | _, [] => 0
  | i, w :: ws =>
    let r := bitLengthFrom (i + 1) ws
    if r ≠ 0 then r else if w ≠ 0 then (i + 1) * 64 - countlZero w else 0

@[inherit_doc bitLengthFrom]
def bitLength (s : List UInt64) : Nat := bitLengthFrom 0 s

/-- The bit test `(s[i/64] >> (i%64) & 1) == 1` used by all double-and-add loops
(`include/bls12-381/scalar.hpp:259`, `:275`, `:291`, `:306`, `:322`, `:338`, `:355`). An index past the array
would be out of range; `bit_index_lt` shows the loops stay inside. -/
def bit (s : List UInt64) (i : Nat) : Bool :=
  (s.getD (i / 64) 0 >>> UInt64.ofNat (i % 64)) &&& 1 == 1

/-- `scalar::cmp` (`include/bls12-381/scalar.hpp:150-165`) on two arrays of the same length: the top word
decides first. -/
def cmp : List UInt64 → List UInt64 → Ordering
  | a :: as, b :: bs =>
    match cmp as bs with
    | .eq => if a < b then .lt else if b < a then .gt else .eq
    | r => r
  | _, _ => .eq

/-- `scalar::equal` (`include/bls12-381/scalar.hpp:168-179`). -/
def equal : List UInt64 → List UInt64 → Bool
  | a :: as, b :: bs => if a != b then false else equal as bs
  | _, _ => true

/-- One word of `scalar::rsh` (`include/bls12-381/scalar.hpp:202-213`). -/
def rshWord (s : List UInt64) (bits i : Nat) : UInt64 :=
  let numBytes := bits / 64
  let numBits := bits % 64
  let vFrom := if i + numBytes ≥ s.length then 0 else s.getD (i + numBytes) 0
  let vFromP1 := if i + numBytes + 1 ≥ s.length then 0 else s.getD (i + numBytes + 1) 0
  if numBits ≠ 0 then vFrom >>> UInt64.ofNat numBits ||| vFromP1 <<< UInt64.ofNat (64 - numBits)
  else vFrom

/-- `scalar::rsh` (`include/bls12-381/scalar.hpp:196-214`). `out` and `in` may be the same array: word `i` is
written after words `≥ i` were read for it, and later words only read indices `> i`. -/
def rsh (s : List UInt64) (bits : Nat) : List UInt64 := (List.range s.length).map (rshWord s bits)

/-- The carry loop of `scalar::add` (`include/bls12-381/scalar.hpp:111-114`) for the remaining `n` words: missing words
count as zero. -/
def addLoop : Nat → List UInt64 → List UInt64 → UInt64 → List UInt64 × UInt64
  | 0, _, _, c => ([], c)
  | n + 1, a, b, c =>
    let (s, c) := add64 (a.headD 0) (b.headD 0) c
    let (r, c) := addLoop n a.tail b.tail c
    (s :: r, c)

/-- `scalar::add<NC, NA, NB>` (`include/bls12-381/scalar.hpp:100-124`). `none` is the
`std::invalid_argument` exception. A final carry is written to word `N+1` (not `N`). -/
def add (nc : Nat) (a b : List UInt64) : Option (List UInt64) :=
  let n := if b.length > a.length then b.length else a.length
  if n > nc then none
  else
    let (s, carry) := addLoop n a b 0
    let c := s ++ List.replicate (nc - n) 0
    if carry > 0 then
      if nc ≤ n + 1 then none else some (c.set (n + 1) carry)
    else some c

/-- Inner loop of `scalar::multiply` (`include/bls12-381/scalar.hpp:137-143`) for one word `w = b[i]`: writes the
row `a * w` into the buffer at offset `k = i + j`. `none`: an index `≥ NC` (undefined behaviour). -/
def mulRow (w : UInt64) : List UInt64 → Nat → List UInt64 → Option (List UInt64)
  | [], _, buf => some buf
  | a :: as, k, buf =>
    match buf[k]?, buf[k + 1]? with
    | some x, some y =>
      let (hi, lo) := mul64 a w
      let (s, carry) := add64 x lo 0
      let (t, _) := add64 y hi carry
      mulRow w as (k + 1) ((buf.set k s).set (k + 1) t)
    | _, _ => none

/-- Outer loop of `scalar::multiply` (`include/bls12-381/scalar.hpp:134-145`). -/
def mulLoop (nc : Nat) (a : List UInt64) : List UInt64 → Nat → List UInt64 → Option (List UInt64)
  | [], _, c => some c
  | w :: ws, i, c =>
    match mulRow w a i (List.replicate nc 0) with
    | none => none
    | some buf =>
      match add nc c buf with
      | none => none
      | some c => mulLoop nc a ws (i + 1) c

/-- `scalar::multiply<NC, NA, NB>` (`include/bls12-381/scalar.hpp:127-147`). -/
def multiply (nc : Nat) (a b : List UInt64) : Option (List UInt64) :=
  mulLoop nc a b 0 (List.replicate nc 0)

end Bls.Scalar
