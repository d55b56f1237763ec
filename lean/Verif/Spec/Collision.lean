import Verif.Spec.Keys

/-!
# Strings hashed on the way, and collisions between them

Collisions of SHA-256 exist, so that some string collides with another says nothing. Here the two strings are taken from short lists
that are computed from the inputs of the two calls.
-/

namespace Bls.Rfc

/-- A string of `A` and another string of `B` have the same hash. -/
def Collide (H : List UInt8 → List UInt8) (A B : List (List UInt8)) : Prop := ∃ a ∈ A, ∃ b ∈ B, a ≠ b ∧ H a = H b

/-- HMAC with a key of at most 64 bytes: the string of the inner hash. -/
def hmacInner (key text : List UInt8) : List UInt8 := (key ++ List.replicate (64 - key.length) 0).map (· ^^^ 0x36) ++ text

/-- HMAC with a key of at most 64 bytes: the string of the outer hash. -/
def hmacOuter (H : List UInt8 → List UInt8) (key text : List UInt8) : List UInt8 :=
  (key ++ List.replicate (64 - key.length) 0).map (· ^^^ 0x5c) ++ H (hmacInner key text)

/-- The two strings hashed by HMAC. -/
def hmacInputs (H : List UInt8 → List UInt8) (key text : List UInt8) : List (List UInt8) := [hmacInner key text, hmacOuter H key text]

/-- The first four strings hashed by HKDF: those of the extraction and those of the first block. -/
def hkdfInputs (H : List UInt8 → List UInt8) (salt ikm info : List UInt8) : List (List UInt8) :=
  hmacInputs H salt ikm ++ hmacInputs H (H (hmacOuter H salt ikm)) (info ++ [1])

/-- The string hashed to `b_0` by `expand_message_xmd`. -/
def xmdFirst (msg dst : List UInt8) (len : ℕ) : List UInt8 :=
  List.replicate 64 0 ++ msg ++ Fips.be 2 len ++ Fips.be 1 0 ++ (dst ++ Fips.be 1 dst.length)

/-- The first two strings hashed by `expand_message_xmd`. -/
def xmdInputs (H : List UInt8 → List UInt8) (msg dst : List UInt8) (len : ℕ) : List (List UInt8) :=
  [xmdFirst msg dst len, H (xmdFirst msg dst len) ++ [1] ++ (dst ++ Fips.be 1 dst.length)]

/-- Six of the strings hashed by `parent_SK_to_lamport_PK`: those of the first chunk of the Lamport key, the chunk itself, and the
last string. -/
def lamportInputs (H : List UInt8 → List UInt8) (parent index : ℕ) : List (List UInt8) :=
  let ikm := Fips.be 32 parent
  let salt := Fips.be 4 index
  hkdfInputs H salt ikm [] ++
    [H (hmacOuter H (H (hmacOuter H salt ikm)) [1]),
     ((KeyGen.lamportSk H ikm salt).map H).flatten ++ ((KeyGen.lamportSk H (ikm.map (255 - ·)) salt).map H).flatten]

end Bls.Rfc
