import Verif.Proof.Threshold
import Verif.Proof.HashValues
import Verif.Props.Commitment
import Verif.Props.Signatures

/-!
# C108: proofs that a key is known, and that a key and a signature have the same factor

The calls of a verifier: `scale`, `add` and `equal` of both groups (Schnorr; Chaum and Pedersen). The library has no function for it.
-/

namespace Bls.Props
open Bls Sig Pairing

attribute [local irreducible] p q eps pairVal hEff2

variable {adx : Bool}

/-- The test of the answer `z` to the challenge `c` after the point `R`, for the key `P`.
Calls: `g1::scale` (include/bls12-381/scalar.hpp:331), `g1::add` (src/g.cpp:332), `g1::equal` (src/g.cpp:253). -/
def knows (P R : G1 (FpV adx)) (c z : List UInt64) : Prop :=
  ((G1.one : G1 (FpV adx)).scale z).equal (R.add (P.scale c)) = true

/-- The test for the key `P` and the multiple `S` of `h` together.
Calls: `g2::scale` (include/bls12-381/scalar.hpp:348), `g2::add` (src/g.cpp:1053), `g2::equal` (src/g.cpp:972). -/
def sameFactor (P R : G1 (FpV adx)) (h S R' : G2 (FpV adx)) (c z : List UInt64) : Prop :=
  knows P R c z ∧ (h.scale z).equal (R'.add (S.scale c)) = true

theorem knows_iff {P R : G1 (FpV adx)} {A B : E1 (FpV adx)} (hP : P.Rep A) (hR : R.Rep B) (c z : List UInt64) :
    knows P R c z ↔ wordsVal z • gen1 (FpV adx) = B + wordsVal c • A :=
  Jac.equal_iff (Jac.scale_rep (goodCurve1 _) G1.one_rep z) (Jac.add_rep (goodCurve1 _) hR (Jac.scale_rep (goodCurve1 _) hP c))

theorem equal2_iff {h S R : G2 (FpV adx)} {H A B : E2 (FpV adx)} (hh : h.Rep H) (hS : S.Rep A) (hR : R.Rep B) (c z : List UInt64) :
    (h.scale z).equal (R.add (S.scale c)) = true ↔ wordsVal z • H = B + wordsVal c • A :=
  Jac.equal_iff (Jac.scale_rep (goodCurve2 _) hh z) (Jac.add_rep (goodCurve2 _) hR (Jac.scale_rep (goodCurve2 _) hS c))

/-- C108: whoever has the key can answer every challenge, for the key alone and for a signature with it. -/
theorem C108_complete (sk k c z : List UInt64) (hz : wordsVal z % q = (wordsVal k + wordsVal c * wordsVal sk) % q) {h : G2 (FpV adx)}
    (hh : Member2 h) :
    sameFactor (Keys.publicKey sk) ((G1.one : G1 (FpV adx)).scale k) h (h.scale sk) (h.scale k) c z := by
  obtain ⟨H, rh, o⟩ := valid2 hh
  have g := goodCurve1 (FpV adx)
  have g2 := goodCurve2 (FpV adx)
  have e := (ZMod.natCast_eq_natCast_iff' _ _ q).2 hz
  refine ⟨(knows_iff (Keys.publicKey_rep sk) (Jac.scale_rep g G1.one_rep k) c z).2 ?_,
    (equal2_iff rh (Jac.scale_rep g2 rh sk) (Jac.scale_rep g2 rh k) c z).2 ?_⟩
  · rw [← mul_nsmul', ← add_nsmul]
    exact smul_congr (q_smul_gen1 _) e
  · rw [← mul_nsmul', ← add_nsmul]
    exact smul_congr o e

theorem cancel_factor {G : Type*} [AddCommGroup G] {A B : G} {n : ℕ} (oA : q • A = 0) (oB : q • B = 0) (hn : ¬ q ∣ n)
    (h : n • A = n • B) : A = B := by
  rw [← sub_eq_zero]
  have h0 : n • (A - B) = 0 := by rw [nsmul_sub, h, sub_self]
  have h1 : q • (A - B) = 0 := by rw [nsmul_sub, oA, oB, sub_self]
  have := gcd_smul h1 h0
  rwa [(Nat.Prime.coprime_iff_not_dvd q_prime).2 hn, one_smul] at this

/-- From two answers after the same point. -/
theorem two_answers {G : Type*} [AddCommGroup G] {g A B : G} (og : q • g = 0) (oA : q • A = 0) {c c' z z' x : ℕ}
    (h : z • g = B + c • A) (h' : z' • g = B + c' • A) (hc : (c : ZMod q) ≠ c')
    (hx : (x : ZMod q) * ((c : ZMod q) - c') = (z : ZMod q) - z') : A = x • g := by
  have hd : ∃ d : ℕ, (d : ZMod q) = (c : ZMod q) - c' := ⟨_, ZMod.natCast_zmod_val _⟩
  obtain ⟨d, hd⟩ := hd
  have h1 : d • A = d • x • g := by
    have e1 : d • A + c' • A = c • A := by
      rw [← add_nsmul]; exact smul_congr oA (by push_cast; rw [hd]; ring)
    have e2 : d • x • g + z' • g = z • g := by
      rw [← mul_nsmul', ← add_nsmul]; exact smul_congr og (by push_cast; rw [hd]; linear_combination hx)
    have e3 : z • g + c' • A = z' • g + c • A := by rw [h, h']; abel
    have e4 : d • x • g + z' • g + c' • A = z' • g + (d • A + c' • A) := by rw [e1, e2, e3]
    have e5 : d • x • g + (z' • g + c' • A) = d • A + (z' • g + c' • A) := by rw [← add_assoc, e4]; abel
    exact (add_right_cancel e5).symm
  refine cancel_factor oA (smul_smul_zero og _) ?_ h1
  rw [← ZMod.natCast_eq_zero_iff, hd, sub_eq_zero]
  exact hc

/-- C108: two answers to different challenges after the same point `R` give the key: it is the quotient of the differences. -/
theorem C108_extract {P R : G1 (FpV adx)} (hP : Member1 P) (hR : R.isOnCurve FpC.B = true) (c c' z z' : List UInt64)
    (h : knows P R c z) (h' : knows P R c' z') (hc : wordsVal c % q ≠ wordsVal c' % q) (x : List UInt64)
    (hx : (wordsVal x : ZMod q) * ((wordsVal c : ZMod q) - wordsVal c') = (wordsVal z : ZMod q) - wordsVal z') :
    P.equal (Keys.publicKey x) = true := by
  obtain ⟨A, rA, oA⟩ := valid1 hP
  obtain ⟨B, rB⟩ := G1.onCurve_iff.1 hR
  rw [Jac.equal_iff rA (Keys.publicKey_rep x)]
  exact two_answers (q_smul_gen1 _) oA ((knows_iff rA rB c z).1 h) ((knows_iff rA rB c' z').1 h')
    (fun e => hc ((ZMod.natCast_eq_natCast_iff' _ _ q).1 e)) hx

/-- C108: if two different challenges have answers for a key and a point `s` of the second group, then `s` is the signature. So for
a point that `verify` rejects, after `R` and `R'` at most one challenge modulo the order has an answer. -/
theorem C108_signature {pk R : G1 (FpV adx)} {h s R' : G2 (FpV adx)} (hpk : Member1 pk) (hs : Member2 s)
    (hR : R.isOnCurve FpC.B = true) (hR' : R'.isOnCurve Fp2.B = true) (m : List UInt8) (hm : fromMessage m ciphersuiteId = some h)
    (c c' z z' : List UInt64) (h1 : sameFactor pk R h s R' c z) (h2 : sameFactor pk R h s R' c' z')
    (hc : wordsVal c % q ≠ wordsVal c' % q) : verify pk m s = some true := by
  obtain ⟨H, rh, o⟩ := fromMessage_some id_length.1 hm
  obtain ⟨A, rA, oA⟩ := valid1 hpk
  obtain ⟨B, rB⟩ := G1.onCurve_iff.1 hR
  obtain ⟨S, rS, oS⟩ := valid2 hs
  obtain ⟨B', rB'⟩ := G2.onCurve_iff.1 hR'
  have hc' : (wordsVal c : ZMod q) ≠ wordsVal c' := fun e => hc ((ZMod.natCast_eq_natCast_iff' _ _ q).1 e)
  set x : ZMod q := ((wordsVal z : ZMod q) - wordsVal z') / ((wordsVal c : ZMod q) - wordsVal c') with hx
  have hx' : ((x.val : ℕ) : ZMod q) * ((wordsVal c : ZMod q) - wordsVal c') = (wordsVal z : ZMod q) - wordsVal z' := by
    rw [ZMod.natCast_zmod_val, hx, div_mul_cancel₀ _ (sub_ne_zero.2 hc')]
  have e1 := two_answers (q_smul_gen1 _) oA ((knows_iff rA rB c z).1 h1.1) ((knows_iff rA rB c' z').1 h2.1) hc' hx'
  have e2 := two_answers o oS ((equal2_iff rh rS rB' c z).1 h1.2) ((equal2_iff rh rS rB' c' z').1 h2.2) hc' hx'
  subst e1 e2
  exact (verify_true_iff _ _ _).2 ⟨h, H, _, hm, rh, o, ZMod.val_lt _, rA, rS⟩

/-- C108: the answers say nothing about the key: for every key, challenge and answer there is a point `R` with which the test accepts.
The challenge has to depend on the key as well as on `R`: for every `R`, challenge (not zero) and answer there is such a key. -/
theorem C108_simulate (c z : List UInt64) {Q : G1 (FpV adx)} (hQ : Member1 Q) :
    (∃ R, Member1 R ∧ knows Q R c z ∧ ∀ R', Member1 R' → knows Q R' c z → R'.equal R = true) ∧
    (¬ q ∣ wordsVal c → ∃ P, Member1 P ∧ knows P Q c z ∧ ∀ P', Member1 P' → knows P' Q c z → P'.equal P = true) := by
  obtain ⟨A, rA, oA⟩ := valid1 hQ
  have og := q_smul_gen1 (FpV adx)
  constructor
  · obtain ⟨R, rR⟩ := Jac.exists_rep (wordsVal z • gen1 (FpV adx) - wordsVal c • A)
    refine ⟨R, ?_, (knows_iff rA rR c z).2 (by abel), fun R' hR' h => ?_⟩
    · refine ⟨G1.onCurve_iff.2 ⟨_, rR⟩, (G1.inCorrectSubgroup_iff rR).2 ?_⟩
      rw [nsmul_sub, smul_smul_zero og, smul_smul_zero oA, sub_zero]
    · obtain ⟨B, rB, -⟩ := valid1 hR'
      rw [Jac.equal_iff rB rR, (knows_iff rA rB c z).1 h]
      abel
  · intro hc
    have hc' : (wordsVal c : ZMod q) ≠ 0 := fun e => hc ((ZMod.natCast_eq_zero_iff _ _).1 e)
    set d : ZMod q := (wordsVal c : ZMod q)⁻¹ with hd
    have oT : q • (wordsVal z • gen1 (FpV adx) - A) = 0 := by rw [nsmul_sub, smul_smul_zero og, oA, sub_zero]
    have hdc : wordsVal c • d.val • (wordsVal z • gen1 (FpV adx) - A) = wordsVal z • gen1 (FpV adx) - A := by
      rw [← mul_nsmul', smul_congr (b := 1) oT, one_nsmul]
      push_cast
      rw [ZMod.natCast_zmod_val, hd, mul_inv_cancel₀ hc']
    obtain ⟨P, rP⟩ := Jac.exists_rep (d.val • (wordsVal z • gen1 (FpV adx) - A))
    refine ⟨P, ⟨G1.onCurve_iff.2 ⟨_, rP⟩, (G1.inCorrectSubgroup_iff rP).2 (smul_smul_zero oT _)⟩,
      (knows_iff rP rA c z).2 (by rw [hdc]; abel), fun P' hP' h => ?_⟩
    obtain ⟨B, rB, oB⟩ := valid1 hP'
    rw [Jac.equal_iff rB rP]
    refine cancel_factor oB (smul_smul_zero oT _) hc ?_
    rw [hdc, (knows_iff rB rA c z).1 h]
    abel

/-- C108: without the test of the key for membership, a third of the challenges has an answer for a key outside the subgroup. -/
theorem C108_outside {P : G1 (FpV adx)} (hP : Member1 P) :
    ∃ P' : G1 (FpV adx), P'.isOnCurve FpC.B = true ∧ P'.inCorrectSubgroup = false ∧ ∀ R, Member1 R → ∀ c z : List UInt64,
      knows P' R c z ↔ knows P R c z ∧ 3 ∣ wordsVal c := by
  have hn : (curve (4 : FpV adx)).Nonsingular 0 2 := (goodCurve1 (FpV adx)).nonsingular (by ring)
  obtain ⟨t, ht⟩ := Jac.exists_rep (WeierstrassCurve.Affine.Point.some 0 2 hn)
  have hz : XZero (WeierstrassCurve.Affine.Point.some 0 2 hn) := rfl
  generalize WeierstrassCurve.Affine.Point.some 0 2 hn = T at ht hz
  obtain ⟨A, rA, oA⟩ := valid1 hP
  have hs := Jac.add_rep (goodCurve1 (FpV adx)) rA ht
  have tor : ∀ n : ℕ, q • n • T = 0 → n • T = 0 := fun n e => by
    have := gcd_smul e (show 3 • n • T = 0 by rw [smul_comm, hz.three, smul_zero])
    rwa [show Nat.gcd q 3 = 1 by decide +kernel, one_smul] at this
  refine ⟨P.add t, G1.onCurve_iff.2 ⟨_, hs⟩, ?_, fun R hR c z => ?_⟩
  · rw [← Bool.not_eq_true, G1.inCorrectSubgroup_iff hs, nsmul_add, oA, zero_add]
    intro e
    have := tor 1 (by rwa [one_smul])
    rw [one_smul] at this
    exact hz.ne this
  · obtain ⟨B, rB, oB⟩ := valid1 hR
    rw [knows_iff hs rB, knows_iff rA rB, nsmul_add]
    have h3 : 3 ∣ wordsVal c ↔ wordsVal c • T = 0 := by
      have : Fact (Nat.Prime 3) := ⟨Nat.prime_three⟩
      rw [← addOrderOf_dvd_iff_nsmul_eq_zero, addOrderOf_eq_prime hz.three hz.ne]
    rw [h3]
    constructor
    · intro e
      have e0 : wordsVal c • T = wordsVal z • gen1 (FpV adx) - B - wordsVal c • A := by rw [e]; abel
      have e1 : wordsVal c • T = 0 := tor _ (by
        rw [e0, nsmul_sub, nsmul_sub, smul_smul_zero (q_smul_gen1 _), smul_smul_zero oA, oB, sub_zero, sub_zero])
      exact ⟨by rw [e, e1, add_zero], e1⟩
    · rintro ⟨e, e1⟩
      rw [e, e1, add_zero]

/-- The key 5, the point for 7, the challenges 3 and 4: the answers 22 and 27. -/
theorem knows_case : sameFactor (Keys.publicKey [5]) ((G1.one : G1 (FpV adx)).scale [7]) G2.one (G2.one.scale [5]) (G2.one.scale [7]) [3] [22] ∧
    sameFactor (Keys.publicKey [5]) ((G1.one : G1 (FpV adx)).scale [7]) G2.one (G2.one.scale [5]) (G2.one.scale [7]) [4] [27] :=
  ⟨C108_complete _ _ _ _ (by decide +kernel) valid_one.2, C108_complete _ _ _ _ (by decide +kernel) valid_one.2⟩

theorem scale_member (k : List UInt64) : Member1 ((G1.one : G1 (FpV adx)).scale k) :=
  member1.2 ⟨wordsVal k % q, Nat.mod_lt _ q_prime.pos, by rw [Keys.smul_gen1_mod]; exact Jac.scale_rep (goodCurve1 _) G1.one_rep k⟩

theorem key_member (k : List UInt64) : Member1 (Keys.publicKey k : G1 (FpV adx)) :=
  member1.2 ⟨wordsVal k % q, Nat.mod_lt _ q_prime.pos, by rw [Keys.smul_gen1_mod]; exact Keys.publicKey_rep k⟩

/-- The key 5 comes out. -/
example : (Keys.publicKey [5] : G1 (FpV adx)).equal (Keys.publicKey [5]) = true := by
  refine C108_extract (R := (G1.one : G1 (FpV adx)).scale [7]) (key_member _)
    (G1.onCurve_iff.2 ⟨_, Jac.scale_rep (goodCurve1 _) G1.one_rep _⟩) [3] [4] [22] [27] knows_case.1.1 knows_case.2.1
    (by decide +kernel) [5] ?_
  have e : wordsVal [5] = 5 ∧ wordsVal [3] = 3 ∧ wordsVal [4] = 4 ∧ wordsVal [22] = 22 ∧ wordsVal [27] = 27 := by decide +kernel
  rw [e.1, e.2.1, e.2.2.1, e.2.2.2.1, e.2.2.2.2]
  norm_num

/-- With the signature of the key 5 for any message. -/
example (m : List UInt8) (h : G2 (FpV adx)) (hm : fromMessage m ciphersuiteId = some h) :
    verify (Keys.publicKey [5]) m (h.scale [5]) = some true := by
  obtain ⟨H, rh, o⟩ := fromMessage_some id_length.1 hm
  have g := goodCurve2 (FpV adx)
  have hh : Member2 h := member2.2 ⟨H, rh, o⟩
  exact C108_signature (R := (G1.one : G1 (FpV adx)).scale [7]) (R' := h.scale [7]) (key_member _)
    (member2.2 ⟨_, Jac.scale_rep g rh _, smul_smul_zero o _⟩)
    (G1.onCurve_iff.2 ⟨_, Jac.scale_rep (goodCurve1 _) G1.one_rep _⟩) (G2.onCurve_iff.2 ⟨_, Jac.scale_rep g rh _⟩) m hm [3] [4] [22] [27]
    (C108_complete _ _ _ _ (by decide +kernel) hh) (C108_complete _ _ _ _ (by decide +kernel) hh) (by decide +kernel)

/-- A key outside the subgroup with an answer to the challenge 3, but none to the challenge 4. -/
example : ∃ P' : G1 (FpV adx), P'.inCorrectSubgroup = false ∧ knows P' ((G1.one : G1 (FpV adx)).scale [7]) [3] [22] ∧
    ∀ z, ¬ knows P' ((G1.one : G1 (FpV adx)).scale [7]) [4] z := by
  obtain ⟨P', -, h, e⟩ := C108_outside (key_member (adx := adx) [5])
  have hR : Member1 ((G1.one : G1 (FpV adx)).scale [7]) := scale_member [7]
  exact ⟨P', h, (e _ hR _ _).2 ⟨knows_case.1.1, by decide +kernel⟩, fun z hz => absurd ((e _ hR _ _).1 hz).2 (by decide +kernel)⟩

/-- The hypotheses of `C108_simulate`: a key to the point of the key 7, the challenge 3 and the answer 22; it is the key 5. -/
example : ∃ P : G1 (FpV adx), Member1 P ∧ knows P ((G1.one : G1 (FpV adx)).scale [7]) [3] [22] ∧ (Keys.publicKey [5]).equal P = true := by
  obtain ⟨P, h1, h2, h3⟩ := (C108_simulate (adx := adx) [3] [22] (scale_member [7])).2 (by decide +kernel)
  exact ⟨P, h1, h2, h3 _ (key_member _) knows_case.1.1⟩

end Bls.Props
