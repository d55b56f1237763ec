import Verif.Model.Hash
import Verif.Model.Division
import Verif.Model.Bytes
import Verif.Model.GroupCodec

/-!
# Keys (`src/signatures.cpp:166-441`, `562-580`)

Scalars are lists of four words. The outer `Option` of a result is `none` for undefined behaviour or an exception.
Arrays that C++ leaves uninitialised are parameters named `junk`. `malloc` is taken to succeed.
-/

namespace Bls.Keys

/-- `"BLS-SIG-KEYGEN-SALT-"` (`src/signatures.cpp:185-186`). -/
def salt0 : List UInt8 := [66, 76, 83, 45, 83, 73, 71, 45, 75, 69, 89, 71, 69, 78, 45, 83, 65, 76, 84, 45]

/-- The loop of `secret_key` (`src/signatures.cpp:202-232`), at most `fuel` iterations; `some none`: still running. The
return code of `hkdf256_extract_expand` is ignored as in the source. `saltHkdf` and `saltLen` are one list. -/
def secretKeyLoop (ikm : List UInt8) : Nat → List UInt8 → List UInt8 → Option (Option (List UInt64))
  | 0, _, _ => some none
  | fuel + 1, salt, okm =>
    match Hash.extractExpand okm 48 ikm salt [0, 48] with
    | none => none
    | some (_, okm) =>
      match Division.divnSafe (Scalar.fromBytesBE 6 okm) FpC.Q with
      | none => none
      | some (_, sk) =>
        if !Scalar.equal sk [0, 0, 0, 0] then some (some sk)
        else secretKeyLoop ikm fuel (Sha256.hash [salt]) okm

/-- `secret_key` (`src/signatures.cpp:166-237`). -/
def secretKey (junk : List UInt8) (fuel : Nat) (seed : List UInt8) : Option (Option (List UInt64)) :=
  if seed.length < 32 then some (some [0, 0, 0, 0])
  else secretKeyLoop (seed ++ [0]) fuel salt0 junk

/-- The four bytes written by `buf[3 - i] = index >> (i * 8)` (`src/signatures.cpp:264-267`, `:320-323`, `:341-344`,
`:367-370`). -/
def indexBytes (index : UInt32) : List UInt8 :=
  [(index >>> 24).toUInt8, (index >>> 16).toUInt8, (index >>> 8).toUInt8, index.toUInt8]

/-- `ikm_to_lamport_sk` (`src/signatures.cpp:239-250`). -/
def ikmToLamportSk (out ikm salt : List UInt8) : Option (List UInt8) :=
  (Hash.extractExpand out (32 * 255) ikm salt []).map (·.2)

/-- The 255 digests of the 32-byte pieces (`src/signatures.cpp:281-286`, `:288-293`). -/
def hashPieces (lamport : List UInt8) : List UInt8 :=
  (List.range 255).flatMap fun i => Sha256.hash [(lamport.drop (i * 32)).take 32]

/-- `parent_sk_to_lamport_pk` (`src/signatures.cpp:252-297`). -/
def parentSkToLamportPk (junk0 junk1 : List UInt8) (parentSk : List UInt64) (index : UInt32) : Option (List UInt8) :=
  let salt := indexBytes index
  let ikm := Scalar.toBytesBE parentSk
  let notIkm := ikm.map (· ^^^ 0xff)
  match ikmToLamportSk junk0 ikm salt, ikmToLamportSk junk1 notIkm salt with
  | some lamport0, some lamport1 => some (Sha256.hash [hashPieces lamport0 ++ hashPieces lamport1])
  | _, _ => none

/-- `derive_child_sk` (`src/signatures.cpp:299-309`). -/
def deriveChildSk (junk0 junk1 junk : List UInt8) (fuel : Nat) (parentSk : List UInt64) (index : UInt32) :
    Option (Option (List UInt64)) :=
  match parentSkToLamportPk junk0 junk1 parentSk index with
  | some lamportPk => secretKey junk fuel lamportPk
  | none => none

/-- `aggregate_secret_keys` (`src/signatures.cpp:384-404`): the loop. -/
def aggregateSecretKeysLoop : List (List UInt64) → List UInt64 → Option (List UInt64)
  | [], ret => some ret
  | sk :: sks, ret =>
    match Scalar.add 4 ret sk with
    | none => none
    | some state =>
      match Division.divnSafe state FpC.Q with
      | none => none
      | some (_, ret) => aggregateSecretKeysLoop sks ret

/-- `aggregate_secret_keys` (`src/signatures.cpp:384-404`). -/
def aggregateSecretKeys (sks : List (List UInt64)) : Option (List UInt64) :=
  if sks.isEmpty then some [0, 0, 0, 0] else aggregateSecretKeysLoop sks [0, 0, 0, 0]

/-- `sk_to_bytes` (`src/signatures.cpp:406-409`). -/
def skToBytes (sk : List UInt64) : List UInt8 := Scalar.toBytesBE sk

/-- `sk_from_bytes` (`src/signatures.cpp:411-436`). -/
def skFromBytes (bs : List UInt8) (modOrder : Bool) : Option (List UInt64) :=
  let sk := Scalar.fromBytesBE 4 bs
  if modOrder then (Division.divnSafe sk FpC.Q).map (·.2)
  else if Scalar.cmp sk FpC.Q ≠ .lt then some [0, 0, 0, 0]
  else some sk

variable {K : Type} [FpOps K]

/-- `public_key` (`src/signatures.cpp:438-441`). -/
def publicKey (sk : List UInt64) : G1 K := ((G1.one : G1 K).scale sk).affine

/-- `derive_child_sk_unhardened` (`src/signatures.cpp:311-330`). -/
def deriveChildSkUnhardened (K : Type) [FpOps K] (parentSk : List UInt64) (index : UInt32) : Option (List UInt64) :=
  let digest := Sha256.hash [G1.toCompressedBytesBE (publicKey parentSk : G1 K) ++ indexBytes index]
  (skFromBytes digest true).bind fun sk => aggregateSecretKeys [parentSk, sk]

/-- `derive_child_g1_unhardened` (`src/signatures.cpp:332-356`). -/
def deriveChildG1Unhardened (pk : G1 K) (index : UInt32) : Option (G1 K) :=
  let digest := Sha256.hash [G1.toCompressedBytesBE pk ++ indexBytes index]
  let nonce := Scalar.fromBytesBE 4 digest
  (Division.divnSafe nonce FpC.Q).map fun r => pk.add ((G1.one : G1 K).scale r.2)

/-- `derive_child_g2_unhardened` (`src/signatures.cpp:358-382`). -/
def deriveChildG2Unhardened (pk : G2 K) (index : UInt32) : Option (G2 K) :=
  let digest := Sha256.hash [G2.toCompressedBytesBE pk ++ indexBytes index]
  let nonce := Scalar.fromBytesBE 4 digest
  (Division.divnSafe nonce FpC.Q).map fun r => pk.add ((G2.one : G2 K).scale r.2)

/-- `aggregate_public_keys`, `aggregate_signatures` (`src/signatures.cpp:562-580`): the same text for `g1` and `g2`. -/
def aggregate {F : Type} [Ops F] (ps : List (Jac F)) : Jac F := ps.foldl Jac.add ⟨Ops.zero, Ops.zero, Ops.zero⟩

/-- The templates `aggregate_public_keys(pks, f, pred)` and `aggregate_signatures(sigs, f, pred)`
(`include/bls12-381/signatures.hpp:150-170`). -/
def aggregateIf {F T : Type} [Ops F] (xs : List T) (f : T → Jac F) (pred : T → Nat → Bool) : Jac F :=
  (xs.zipIdx).foldl (fun agg x => if pred x.1 x.2 then agg.add (f x.1) else agg) ⟨Ops.zero, Ops.zero, Ops.zero⟩

end Bls.Keys
