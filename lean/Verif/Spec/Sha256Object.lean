import Verif.Spec.Sha256

/-!
# What an object returns that is used after `digest`

The compression function runs over a stream of bytes. `digest` appends the padding to the stream, with the number of bytes
counted so far in the length field, and then the bytes that were left in the buffer, which are counted once more.
-/

namespace Bls.Fips

/-- Padding with a length field that says `c` bytes. -/
def padCount (s : List UInt8) (c : ℕ) : List UInt8 :=
  s ++ [0x80] ++ List.replicate ((119 - s.length % 64) % 64) 0 ++ be 8 (8 * c)

/-- The beginning of the last block of the padded stream, as long as the incomplete block before padding; the byte `0x80` is
behind it. -/
def leftover (s : List UInt8) (c : ℕ) : List UInt8 :=
  ((padCount s c).drop ((padCount s c).length - 64)).take (s.length % 64)

/-- The calls on an object. -/
inductive Call where
  | update (bs : List UInt8)
  | digest

/-- The stream and the count after a call. -/
structure Stream where
  bytes : List UInt8
  count : ℕ

def Stream.update (s : Stream) (bs : List UInt8) : Stream := ⟨s.bytes ++ bs, s.count + bs.length⟩

/-- After `digest`. -/
def Stream.digest (s : Stream) : Stream :=
  ⟨padCount s.bytes s.count ++ leftover s.bytes s.count, s.count + s.bytes.length % 64⟩

/-- `h` is the value of the compression function over the padded stream. -/
def Stream.Value (s : Stream) (h : List UInt8) : Prop :=
  ∃ K H0, IsK K ∧ IsH0 H0 ∧
    h = Fips.digest (hashAfter K H0 (padCount s.bytes s.count) ((padCount s.bytes s.count).length / 64))

/-- `hs` are the values of the calls of `digest` among `cs`, for an object with the stream `s`. -/
def Stream.Answers : Stream → List Call → List (List UInt8) → Prop
  | _, [], hs => hs = []
  | s, .update bs :: cs, hs => (s.update bs).Answers cs hs
  | s, .digest :: cs, hs => ∃ h t, hs = h :: t ∧ s.Value h ∧ s.digest.Answers cs t

end Bls.Fips
