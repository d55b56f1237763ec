import Verif.Model.Keys
import Verif.Model.MapToCurve
import Verif.Model.Pairing

/-!
# Signatures (`src/signatures.cpp:497-675`)

`none` is undefined behaviour. `std::vector` and `std::span` arguments are lists.
-/

namespace Bls.Sig

/-- `CIPHERSUITE_ID` (`src/signatures.cpp:11`). -/
def ciphersuiteId : List UInt8 := "BLS_SIG_BLS12381G2_XMD:SHA-256_SSWU_RO_NUL_".toUTF8.toList

/-- `POP_CIPHERSUITE_ID` (`src/signatures.cpp:12`). -/
def popCiphersuiteId : List UInt8 := "BLS_POP_BLS12381G2_XMD:SHA-256_SSWU_RO_POP_".toUTF8.toList

variable {K : Type} [FpOps K]

/-- `fp::modPrime` (`include/bls12-381/scalar.hpp:241-249`) over the operations of the field; `Fp.modPrime` is the same
text on words. -/
def modPrime (k : List UInt64) : Option K :=
  (Division.divnSafe k MODULUS.words).map fun r => FpOps.toMont (Fp.ofWords r.2)

/-- The two statements that fill one component of `t` from 64 bytes of `buf` (`src/signatures.cpp:510-511`, `:512-513`,
`:518-519`, `:520-521`). -/
def fieldElement (buf : List UInt8) (off : Nat) : Option K := modPrime (Scalar.fromBytesBE 8 (span buf off 64))

/-- `swuMapG2` and `isogenyMap` applied to `t` (`src/signatures.cpp:515-516`, `:523-524`). -/
def mapPoint (t : Fp2 K) : G2 K :=
  let xy := G2.swuMapG2 t
  G2.isogenyMap ⟨xy.1, xy.2, Fp2.one⟩

/-- `fromMessage` (`src/signatures.cpp:497-527`). The source ignores the return code of `xmd_sh256`; if it is not zero the
array `buf` stays uninitialised and the following read is undefined behaviour. If it is zero the whole array has been
written (theorem `C37_xmd`), so its initial content, here zeros, does not matter. -/
def fromMessage (msg dst : List UInt8) : Option (G2 K) :=
  match Hash.xmd (List.replicate 256 0) 256 msg (Hash.toInt msg.length) dst (Hash.toInt dst.length) with
  | none => none
  | some (code, buf) =>
    if code ≠ 0 then none
    else
      (fieldElement buf 0).bind fun c0 =>
      (fieldElement buf 64).bind fun c1 =>
      let p := mapPoint ⟨c0, c1⟩
      (fieldElement buf 128).bind fun c0 =>
      (fieldElement buf 192).bind fun c1 =>
      let q := mapPoint ⟨c0, c1⟩
      some (G2.clearCofactor (p.add q))

/-- `sign` (`src/signatures.cpp:529-536`). -/
def sign (sk : List UInt64) (msg : List UInt8) : Option (G2 K) :=
  (fromMessage msg ciphersuiteId).map fun p => p.scale sk

/-- `fp12::one().equal(pairing::calculate(v))` (`src/signatures.cpp:559`, `:627`, `:660`). -/
def isOneProduct (v : List (G1 K × G2 K)) : Option Bool :=
  (Pairing.calculate v none ()).map fun r => Fp12.one.equal r.1

/-- `verify` (`src/signatures.cpp:538-560`). -/
def verify (pubkey : G1 K) (message : List UInt8) (signature : G2 K) : Option Bool :=
  let v := Pairing.addPair [] (G1.one : G1 K).negate signature
  (fromMessage message ciphersuiteId).bind fun hashedPoint =>
  let v := Pairing.addPair v pubkey hashedPoint
  if !pubkey.isOnCurve FpC.B || !pubkey.inCorrectSubgroup then some false
  else if !signature.isOnCurve Fp2.B || !signature.inCorrectSubgroup then some false
  else isOneProduct v

/-- The `std::set` of the messages (`src/signatures.cpp:605-609`): its elements, in any order. -/
def messageSet (messages : List (List UInt8)) : List (List UInt8) :=
  messages.foldl (fun s m => if s.contains m then s else m :: s) []

/-- The loop of `aggregate_verify` (`src/signatures.cpp:617-624`) over the keys and messages; `some none`: return false. -/
def aggregateLoop : List (G1 K) → List (List UInt8) → List (G1 K × G2 K) → Option (Option (List (G1 K × G2 K)))
  | pk :: pks, m :: ms, v =>
    if !pk.isOnCurve FpC.B || !pk.inCorrectSubgroup then some none
    else (fromMessage m ciphersuiteId).bind fun h => aggregateLoop pks ms (Pairing.addPair v pk h)
  | _, _, v => some (some v)

/-- `aggregate_verify` (`src/signatures.cpp:582-628`). -/
def aggregateVerify (pubkeys : List (G1 K)) (messages : List (List UInt8)) (signature : G2 K)
    (checkForDuplicateMessages : Bool) : Option Bool :=
  let v := Pairing.addPair [] (G1.one : G1 K).negate signature
  if !signature.isOnCurve Fp2.B || !signature.inCorrectSubgroup then some false
  else if pubkeys.length ≠ messages.length then some false
  else if checkForDuplicateMessages && (messageSet messages).length != pubkeys.length then some false
  else
    (aggregateLoop pubkeys messages v).bind fun r =>
    match r with
    | none => some false
    | some v => isOneProduct v

/-- `pk.toAffineBytesLE(from_mont::yes)` (`src/g.cpp:213-225`, `src/fp.cpp:44-48`, `:56-60`). -/
def keyBytes (pk : G1 K) : List UInt8 :=
  Jac.toAffineBytes 48 (fun x => Scalar.toBytesLE (FpOps.fromMont x).words) pk

/-- `pop_prove` (`src/signatures.cpp:630-636`). -/
def popProve (sk : List UInt64) : Option (G2 K) :=
  let pk : G1 K := Keys.publicKey sk
  let msg := keyBytes pk
  (fromMessage msg popCiphersuiteId).map fun hashedKey => hashedKey.scale sk

/-- `pop_verify` (`src/signatures.cpp:638-661`). -/
def popVerify (pubkey : G1 K) (signatureProof : G2 K) : Option Bool :=
  let msg := keyBytes pubkey
  (fromMessage msg popCiphersuiteId).bind fun hashedPoint =>
  if !pubkey.isOnCurve FpC.B || !pubkey.inCorrectSubgroup then some false
  else if !signatureProof.isOnCurve Fp2.B || !signatureProof.inCorrectSubgroup then some false
  else
    let v := Pairing.addPair [] (G1.one : G1 K).negate signatureProof
    let v := Pairing.addPair v pubkey hashedPoint
    isOneProduct v

/-- `pop_fast_aggregate_verify` (`src/signatures.cpp:663-675`). -/
def popFastAggregateVerify (pubkeys : List (G1 K)) (message : List UInt8) (signature : G2 K) : Option Bool :=
  if pubkeys.length = 0 then some false else verify (Keys.aggregate pubkeys) message signature

end Bls.Sig
