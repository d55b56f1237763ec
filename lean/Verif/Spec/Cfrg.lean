import Verif.Spec.Signatures
import Verif.Spec.GroupCodec
import Verif.Proof.Groups

/-!
# The signature schemes of draft-irtf-cfrg-bls-signature, on points

Signatures are in the second group. The checks of the draft on a key (`KeyValidate`, section 2.5) and on a signature (`signature_subgroup_check`)
and the comparison of pairings together say that the key is not infinity and that one number is the secret key of the key and makes the
signature; that is how `CoreVerify` states them.
-/

namespace Bls.Cfrg
open Rfc

variable {K : Type} [Field K] [IsFp K] [DecidableEq K]

/-- The ASCII codes of `BLS_SIG_BLS12381G2_XMD:SHA-256_SSWU_RO_POP_`, the tag of the messages in the proof of possession scheme
(section 4.2.3). -/
def popSigTag : List UInt8 :=
  [66, 76, 83, 95, 83, 73, 71, 95, 66, 76, 83, 49, 50, 51, 56, 49, 71, 50, 95, 88, 77, 68, 58, 83, 72, 65,
   45, 50, 53, 54, 95, 83, 83, 87, 85, 95, 82, 79, 95, 80, 79, 80, 95]

/-- Section 2.7: `S` is the signature of the message under the public key `P`, which is not infinity. -/
def CoreVerify (H : List UInt8 → List UInt8) (tag msg : List UInt8) (P : E1 K) (S : E2 K) : Prop :=
  P ≠ 0 ∧ ∃ (n : ℕ) (Q : E2 K), IsHash H msg tag Q ∧ P = n • gen1 K ∧ S = n • Q

/-- Section 2.9: `S` is the sum of signatures of the messages, at least one, under their keys. -/
def CoreAggregateVerify (H : List UInt8 → List UInt8) (tag : List UInt8) (l : List (E1 K × List UInt8)) (S : E2 K) : Prop :=
  l ≠ [] ∧ ∃ Ss : List (E2 K), List.Forall₂ (fun x S => CoreVerify H tag x.2 x.1 S) l Ss ∧ S = Ss.sum

/-- Section 3.1.1: the basic scheme, whose messages must differ. -/
def AggregateVerify (H : List UInt8 → List UInt8) (l : List (E1 K × List UInt8)) (S : E2 K) : Prop :=
  (l.map Prod.snd).Nodup ∧ CoreAggregateVerify H sigTag l S

/-- Section 3.3.3: `S` is a proof of possession of the key, over its compressed form. -/
def PopVerify (H : List UInt8 → List UInt8) (P : E1 K) (S : E2 K) : Prop :=
  ∃ bs, IsCompressed1 P bs ∧ CoreVerify H popTag bs P S

/-- Section 3.3.4: one message under the sum of the keys, at least one. -/
def FastAggregateVerify (H : List UInt8 → List UInt8) (Ps : List (E1 K)) (msg : List UInt8) (S : E2 K) : Prop :=
  Ps ≠ [] ∧ CoreVerify H popSigTag msg Ps.sum S

end Bls.Cfrg
