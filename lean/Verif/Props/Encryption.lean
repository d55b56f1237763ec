import Verif.Props.Vector

/-!
# C110: a key used on points of other people

The calls of a user who encrypts a point to a public key and decrypts with the secret key (ElGamal): `scale`, `add`, `subtract`. The
library has no function for it.
-/

namespace Bls.Props
open Bls Sig Pairing

attribute [local irreducible] p q eps pairVal hEff2

variable {adx : Bool} {n : ℕ}

/-- The point `M` encrypted to the key `pk` with the random number `k`.
Calls: `g1::scale` (include/bls12-381/scalar.hpp:331), `g1::add` (src/g.cpp:332). -/
def encrypt (pk M : G1 (FpV adx)) (k : List UInt64) : G1 (FpV adx) × G1 (FpV adx) :=
  ((G1.one : G1 (FpV adx)).scale k, M.add (pk.scale k))

/-- Decryption with the secret key.
Calls: `g1::scale` (include/bls12-381/scalar.hpp:331), `g1::subtract` (src/g.cpp:441). -/
def decrypt (sk : List UInt64) (c : G1 (FpV adx) × G1 (FpV adx)) : G1 (FpV adx) := c.2.subtract (c.1.scale sk)

theorem decrypt_rep {C D : G1 (FpV adx)} {P Q : E1 (FpV adx)} (hC : C.Rep P) (hD : D.Rep Q) (sk : List UInt64) :
    (decrypt sk (C, D)).Rep (Q - wordsVal sk • P) :=
  Jac.sub_rep (goodCurve1 _) hD (Jac.scale_rep (goodCurve1 _) hC sk)

/-- C110: decryption gives the point back, for every point of the curve. -/
theorem C110_decrypt (sk k : List UInt64) {M : G1 (FpV adx)} (hM : M.isOnCurve FpC.B = true) :
    (decrypt sk (encrypt (Keys.publicKey sk) M k)).equal M = true := by
  obtain ⟨A, rA⟩ := G1.onCurve_iff.1 hM
  have g := goodCurve1 (FpV adx)
  refine (Jac.equal_iff (decrypt_rep (Jac.scale_rep g G1.one_rep k)
    (Jac.add_rep g rA (Jac.scale_rep g (Keys.publicKey_rep sk) k)) sk) rA).2 ?_
  rw [smul_comm (wordsVal sk), add_sub_cancel_right]

/-- C110: without the key a pair of points says nothing about the point in it: for every point there is exactly one key below the
group order that decrypts the pair to it, unless the first point is infinity. -/
theorem C110_hides {C D M : G1 (FpV adx)} (hC : Member1 C) (h0 : C.isZero = false) (hD : Member1 D) (hM : Member1 M) :
    ∃! sk : List UInt64, sk.length = 4 ∧ wordsVal sk < q ∧ (decrypt sk (C, D)).equal M = true := by
  obtain ⟨c, rC⟩ := exists_multiple1 hC
  obtain ⟨d, rD⟩ := exists_multiple1 hD
  obtain ⟨m, rM⟩ := exists_multiple1 hM
  have hc : (c : ZMod q) ≠ 0 := fun e => by
    have := rC.isZero_iff.2 (by rw [smul_congr (b := 0) (q_smul_gen1 _) (by rw [e, Nat.cast_zero]), zero_nsmul])
    rw [h0] at this
    exact Bool.false_ne_true this
  have key : ∀ sk : List UInt64, (decrypt sk (C, D)).equal M = true ↔ (wordsVal sk : ZMod q) = ((d : ZMod q) - m) / c := fun sk => by
    rw [Jac.equal_iff (decrypt_rep rC rD sk) rM, sub_eq_iff_eq_add, ← mul_nsmul', ← add_nsmul, Keys.smul_gen1_eq_iff,
      ← ZMod.natCast_eq_natCast_iff', eq_div_iff hc]
    push_cast
    constructor <;> intro e <;> linear_combination -e
  obtain ⟨w, hl, hw⟩ := Keys.exists_words (ZMod.val_lt (((d : ZMod q) - (m : ZMod q)) / (c : ZMod q)))
  refine ⟨w, ⟨hl, hw ▸ ZMod.val_lt _, (key w).2 (by rw [hw, ZMod.natCast_zmod_val])⟩, fun s ⟨h1, h2, h3⟩ =>
    wordsVal_inj (h1.trans hl.symm) ?_⟩
  rw [hw, ← (key s).1 h3, ZMod.val_natCast, Nat.mod_eq_of_lt h2]

/-- C110: the sum of two pairs is decrypted to the sum of the points. -/
theorem C110_add (sk : List UInt64) {C D C' D' : G1 (FpV adx)} (hC : C.isOnCurve FpC.B = true) (hD : D.isOnCurve FpC.B = true)
    (hC' : C'.isOnCurve FpC.B = true) (hD' : D'.isOnCurve FpC.B = true) :
    (decrypt sk (C.add C', D.add D')).equal ((decrypt sk (C, D)).add (decrypt sk (C', D'))) = true := by
  obtain ⟨P, rP⟩ := G1.onCurve_iff.1 hC
  obtain ⟨Q, rQ⟩ := G1.onCurve_iff.1 hD
  obtain ⟨P', rP'⟩ := G1.onCurve_iff.1 hC'
  obtain ⟨Q', rQ'⟩ := G1.onCurve_iff.1 hD'
  have g := goodCurve1 (FpV adx)
  rw [Jac.equal_iff (decrypt_rep (Jac.add_rep g rP rP') (Jac.add_rep g rQ rQ') sk)
    (Jac.add_rep g (decrypt_rep rP rQ sk) (decrypt_rep rP' rQ' sk)), nsmul_add]
  abel

/-- C110: adding infinity, encrypted with `k'`, to a pair made with `k` gives the pair made with `k + k'` modulo the group order. -/
theorem C110_again {pk M : G1 (FpV adx)} (hpk : Member1 pk) (hM : M.isOnCurve FpC.B = true) (k k' l : List UInt64)
    (hl : wordsVal l % q = (wordsVal k + wordsVal k') % q) :
    ((encrypt pk M k).1.add (encrypt pk Jac.zero k').1).equal (encrypt pk M l).1 = true ∧
      ((encrypt pk M k).2.add (encrypt pk Jac.zero k').2).equal (encrypt pk M l).2 = true := by
  obtain ⟨A, rA, oA⟩ := valid1 hpk
  obtain ⟨B, rB⟩ := G1.onCurve_iff.1 hM
  have g := goodCurve1 (FpV adx)
  have e : ((wordsVal k + wordsVal k' : ℕ) : ZMod q) = wordsVal l := (ZMod.natCast_eq_natCast_iff' _ _ q).2 hl.symm
  have s := fun w => Jac.scale_rep g (G1.one_rep (K := FpV adx)) w
  have t := fun w => Jac.scale_rep g rA w
  refine ⟨(Jac.equal_iff (Jac.add_rep g (s k) (s k')) (s l)).2 ?_,
    (Jac.equal_iff (Jac.add_rep g (Jac.add_rep g rB (t k)) (Jac.add_rep g Jac.zero_rep (t k'))) (Jac.add_rep g rB (t l))).2 ?_⟩
  · rw [← add_nsmul]
    exact smul_congr (q_smul_gen1 _) e
  · rw [zero_add, add_assoc, ← add_nsmul, smul_congr oA e]

/-- C110: holders of parts of the key decrypt together: every one gives the first point scaled with the part. -/
theorem C110_parts (w sk : Fin n → List UInt64) (hw : ∀ i, (w i).length = 4) (s : List UInt64)
    (hs : wordsVal s % q = (∑ i, wordsVal (w i) * wordsVal (sk i)) % q) {C D : G1 (FpV adx)} (hC : Member1 C)
    (hD : D.isOnCurve FpC.B = true) :
    (D.subtract (Jac.weightedSum (List.ofFn fun i => C.scale (sk i)) (List.ofFn w))).equal (decrypt s (C, D)) = true := by
  obtain ⟨P, rP, oP⟩ := valid1 hC
  obtain ⟨Q, rQ⟩ := G1.onCurve_iff.1 hD
  have g := goodCurve1 (FpV adx)
  rw [Jac.equal_iff (Jac.sub_rep g rQ (weightedSum1_ofFn (fun i => Jac.scale_rep g rP (sk i)) w hw)) (decrypt_rep rP rQ s)]
  simp only [← mul_nsmul']
  rw [smul_congr oP ((ZMod.natCast_eq_natCast_iff' _ _ q).2 hs), ← Finset.sum_smul]

theorem order_add {G : Type*} [AddCommGroup G] {P Q : G} {l n : ℕ} (hl : l.Prime) (hP : addOrderOf P = n) (hQ : l • Q = 0) (h0 : Q ≠ 0)
    (h : n.Coprime l) : addOrderOf (P + Q) = n * l := by
  have : Fact l.Prime := ⟨hl⟩
  have o := addOrderOf_eq_prime hQ h0
  rw [(AddCommute.all P Q).addOrderOf_add_eq_mul_addOrderOf_of_coprime (by rwa [hP, o]), hP, o]

/-- A point of the curve of the order `3 * 11 * 52437899 * 10177 * 859267`. -/
theorem exists_order : ∃ T : E1 (FpV adx), addOrderOf T = 0xd201000000010001 := by
  have hn : (curve (4 : FpV adx)).Nonsingular 0 2 := (goodCurve1 (FpV adx)).nonsingular (by ring)
  have hz : XZero (WeierstrassCurve.Affine.Point.some 0 2 hn) := rfl
  have : Fact (Nat.Prime 3) := ⟨Nat.prime_three⟩
  have o := addOrderOf_eq_prime hz.three hz.ne
  have o := order_add (by norm_num) o (t11_smul (FpV adx)) (pt1_ne_zero _) (by norm_num)
  have o := order_add (by norm_num) o (t52437899_smul (FpV adx)) (pt1_ne_zero _) (by norm_num)
  have o := order_add (by norm_num) o (show 10177 • pt1 (FpV adx) t10177ux t10177uy (by decide +kernel) = 0 from
    smul_eq_zero_of (goodCurve1 _) (pt1_rep _ _ _ _) (by decide +kernel)) (pt1_ne_zero _) (by norm_num)
  have o := order_add (by norm_num) o (show 859267 • pt1 (FpV adx) t859267ux t859267uy (by decide +kernel) = 0 from
    smul_eq_zero_of (goodCurve1 _) (pt1_rep _ _ _ _) (by decide +kernel)) (pt1_ne_zero _) (by norm_num)
  exact ⟨_, o.trans (by norm_num)⟩

/-- C110: without the test of the first point for membership, decryption gives away the key modulo a number of 64 bits whose prime factors
are 3, 11, 10177, 859267 and 52437899: there is a point of the curve with which two keys decrypt alike exactly if they are equal modulo
this number. -/
theorem C110_outside : ∃ T : G1 (FpV adx), T.isOnCurve FpC.B = true ∧ T.inCorrectSubgroup = false ∧
    ∀ D : G1 (FpV adx), D.isOnCurve FpC.B = true → ∀ sk sk' : List UInt64,
      (decrypt sk (T, D)).equal (decrypt sk' (T, D)) = true ↔
        wordsVal sk % (3 * 11 * 10177 * 859267 * 52437899) = wordsVal sk' % (3 * 11 * 10177 * 859267 * 52437899) := by
  obtain ⟨T, o⟩ := exists_order (adx := adx)
  obtain ⟨t, ht⟩ := Jac.exists_rep T
  refine ⟨t, G1.onCurve_iff.2 ⟨_, ht⟩, ?_, fun D hD sk sk' => ?_⟩
  · rw [← Bool.not_eq_true, G1.inCorrectSubgroup_iff ht, ← addOrderOf_dvd_iff_nsmul_eq_zero, o]
    decide +kernel
  · obtain ⟨Q, rQ⟩ := G1.onCurve_iff.1 hD
    rw [Jac.equal_iff (decrypt_rep ht rQ sk) (decrypt_rep ht rQ sk'), sub_right_inj, nsmul_inj_mod, o]

/-- The point 9, encrypted to the key 5 with 7. -/
example : (decrypt [5] (encrypt (Keys.publicKey [5]) ((G1.one : G1 (FpV adx)).scale [9]) [7])).equal
    ((G1.one : G1 (FpV adx)).scale [9]) = true := C110_decrypt _ _ (scale_member _).1

theorem two_ne_zero1 : ((G1.one : G1 (FpV adx)).scale [2]).isZero = false := by
  rw [Bool.eq_false_iff, Ne, (Jac.scale_rep (goodCurve1 (FpV adx)) (G1.one_rep (K := FpV adx)) [2]).isZero_iff]
  have h := nsmul_inj_mod (x := gen1 (FpV adx)) (n := wordsVal [2]) (m := 0)
  rw [Keys.order_gen1, zero_nsmul] at h
  rw [h]
  decide +kernel

/-- The pair of 2 and 100 is decrypted to 9 by one key. -/
example : ∃! sk : List UInt64, sk.length = 4 ∧ wordsVal sk < q ∧
    (decrypt sk ((G1.one : G1 (FpV adx)).scale [2], (G1.one : G1 (FpV adx)).scale [100])).equal ((G1.one : G1 (FpV adx)).scale [9]) = true :=
  C110_hides (scale_member _) two_ne_zero1 (scale_member _) (scale_member _)

/-- The pairs of 2 and 100, and of 3 and 50, decrypted with 5. -/
example : (decrypt [5] (((G1.one : G1 (FpV adx)).scale [2]).add ((G1.one : G1 (FpV adx)).scale [3]),
    ((G1.one : G1 (FpV adx)).scale [100]).add ((G1.one : G1 (FpV adx)).scale [50]))).equal
    ((decrypt [5] ((G1.one : G1 (FpV adx)).scale [2], (G1.one : G1 (FpV adx)).scale [100])).add
      (decrypt [5] ((G1.one : G1 (FpV adx)).scale [3], (G1.one : G1 (FpV adx)).scale [50]))) = true :=
  C110_add _ (scale_member _).1 (scale_member _).1 (scale_member _).1 (scale_member _).1

/-- The random numbers 7 and q - 3 add up to 4. -/
example : ((encrypt (Keys.publicKey [5]) ((G1.one : G1 (FpV adx)).scale [9]) [7]).2.add (encrypt (Keys.publicKey [5]) Jac.zero
      [0xfffffffefffffffe, 0x53bda402fffe5bfe, 0x3339d80809a1d805, 0x73eda753299d7d48]).2).equal
    (encrypt (Keys.publicKey [5]) ((G1.one : G1 (FpV adx)).scale [9]) [4]).2 = true :=
  (C110_again (key_member _) (scale_member _).1 _ _ _ (by decide +kernel)).2

/-- The key 7 in the parts 12 and 17 with the factors 2 and -1. -/
example : (((G1.one : G1 (FpV adx)).scale [100]).subtract (Jac.weightedSum
      (List.ofFn fun i => ((G1.one : G1 (FpV adx)).scale [3]).scale (![[12, 0, 0, 0], [17, 0, 0, 0]] i))
      (List.ofFn ![[2, 0, 0, 0], [0xffffffff00000000, 0x53bda402fffe5bfe, 0x3339d80809a1d805, 0x73eda753299d7d48]]))).equal
    (decrypt [7] ((G1.one : G1 (FpV adx)).scale [3], (G1.one : G1 (FpV adx)).scale [100])) = true :=
  C110_parts _ _ (by decide) _ (by decide +kernel) (scale_member _) (scale_member _).1

/-- With the point of `C110_outside`, the keys 5 and 5 + 0xd201000000010001 decrypt alike, 5 and 7 do not. -/
example : ∃ T : G1 (FpV adx), T.isOnCurve FpC.B = true ∧ (decrypt [5] (T, G1.one)).equal (decrypt [0xd201000000010006] (T, G1.one)) = true ∧
    (decrypt [5] (T, G1.one)).equal (decrypt [7] (T, G1.one)) = false := by
  obtain ⟨T, h, -, hT⟩ := C110_outside (adx := adx)
  refine ⟨T, h, (hT _ valid_one.1.1 _ _).2 (by decide +kernel), ?_⟩
  rw [Bool.eq_false_iff, Ne, hT _ valid_one.1.1]
  decide +kernel

end Bls.Props
