import Verif.Spec.Groups

/-!
# The prime-order subgroups

The subgroup of a curve is the set of points `P` with `q • P = 0`. Effective cofactors as in RFC 9380.
-/

namespace Bls

/-- The effective cofactor of the first group, RFC 9380, section 8.8.1. -/
def hEff1 : ℕ := 0xd201000000010001

/-- The effective cofactor of the second group, RFC 9380, section 8.8.2. -/
def hEff2 : ℕ :=
  0xbc69f08f2ee75b3584c6a0ea91b352888e2a8e9145ad7689986ff031508ffe1329c2f178731db956d82bf015d1212b02ec0ec69d7477c1ae954cbc06689f6a359894c0adebbf6b4e8020005aaa95551

end Bls
