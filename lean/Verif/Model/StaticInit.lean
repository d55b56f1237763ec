import Verif.Model.Signatures

/-!
# Calls before the constants of the library are initialised

The constants of class type (`fp::MODULUS`, `fp::R1`, `g1::BASE`, the tags …) are objects with static storage whose constructors are
ordinary functions (`src/fp.cpp:8-14`, `src/g.cpp:8-14`), so they are initialised dynamically, translation unit by translation unit
in an order that the language leaves open. A caller that runs in the initialiser of one of its own constants may come before them. The
language leaves the meaning of such a call undefined; for the two base points the model says what happens on implementations: the storage
holds zeros. For the constants of `fp.cpp` and the strings of `signatures.cpp` it says `none`.
-/

namespace Bls.StaticInit

/-- The translation units with constants of class type: `src/fp.cpp:365-420`, `740-814`, `1175-1227`, `1535-1584`,
`src/g.cpp:713-717`, `1610-1623`, `src/signatures.cpp:11-12`. -/
inductive Source
  | fp | g | signatures
  deriving DecidableEq

/-- The units whose constants (`src/fp.cpp:365-420`, `src/g.cpp:713-717`, `src/signatures.cpp:11-12`) have been initialised. -/
abbrev Ready := List Source

variable {K : Type} [FpOps K]

/-- What `g1::one` returns (`src/g.cpp:243-246`): the storage of `g1::BASE` (`src/g.cpp:713-717`). -/
def base1 (r : Ready) : G1 K := if .g ∈ r then G1.one else ⟨Ops.zero, Ops.zero, Ops.zero⟩

/-- What `g2::one` returns (`src/g.cpp:962-965`): the storage of `g2::BASE` (`src/g.cpp:1610-1623`). -/
def base2 (r : Ready) : G2 K := if .g ∈ r then G2.one else ⟨Ops.zero, Ops.zero, Ops.zero⟩

/-- `public_key` (`src/signatures.cpp:438-441`). -/
def publicKey (r : Ready) (sk : List UInt64) : Option (G1 K) :=
  if .fp ∈ r then some ((base1 r : G1 K).scale sk).affine else none

/-- `derive_child_g1_unhardened` (`src/signatures.cpp:332-356`). -/
def deriveChildG1Unhardened (r : Ready) (pk : G1 K) (index : UInt32) : Option (G1 K) :=
  if .fp ∈ r then
    let digest := Sha256.hash [G1.toCompressedBytesBE pk ++ Keys.indexBytes index]
    let nonce := Scalar.fromBytesBE 4 digest
    (Division.divnSafe nonce FpC.Q).map fun x => pk.add ((base1 r : G1 K).scale x.2)
  else none

/-- `derive_child_g2_unhardened` (`src/signatures.cpp:358-382`). -/
def deriveChildG2Unhardened (r : Ready) (pk : G2 K) (index : UInt32) : Option (G2 K) :=
  if .fp ∈ r then
    let digest := Sha256.hash [G2.toCompressedBytesBE pk ++ Keys.indexBytes index]
    let nonce := Scalar.fromBytesBE 4 digest
    (Division.divnSafe nonce FpC.Q).map fun x => pk.add ((base2 r : G2 K).scale x.2)
  else none

/-- `sign` (`src/signatures.cpp:529-536`). -/
def sign (r : Ready) (sk : List UInt64) (msg : List UInt8) : Option (G2 K) :=
  if .fp ∈ r ∧ .signatures ∈ r then Sig.sign sk msg else none

/-- `verify` (`src/signatures.cpp:538-560`). -/
def verify (r : Ready) (pubkey : G1 K) (message : List UInt8) (signature : G2 K) : Option Bool :=
  if .fp ∈ r ∧ .signatures ∈ r then
    let v := Pairing.addPair [] (base1 r : G1 K).negate signature
    (Sig.fromMessage message Sig.ciphersuiteId).bind fun hashedPoint =>
    let v := Pairing.addPair v pubkey hashedPoint
    if !pubkey.isOnCurve FpC.B || !pubkey.inCorrectSubgroup then some false
    else if !signature.isOnCurve Fp2.B || !signature.inCorrectSubgroup then some false
    else Sig.isOneProduct v
  else none

end Bls.StaticInit
