import Verif.Props.Knowledge
import Verif.Props.Snark

/-!
# C109: commitments to vectors that hide them (Pedersen)

The calls of a user: `g1::weightedSum` of the bases with the entries, `g1::scale` of a further base `H` with a random number, and their
sum. The library has no function for it.
-/

namespace Bls.Props
open Bls Sig Pairing

attribute [local irreducible] p q eps pairVal hEff2

variable {adx : Bool} {n : ℕ}

/-- The commitment to the vector `m` with the random number `r`.
Calls: `g1::weightedSum` (src/g.cpp:472), `g1::scale` (include/bls12-381/scalar.hpp:331), `g1::add` (src/g.cpp:332). -/
def hide (B : Fin n → G1 (FpV adx)) (H : G1 (FpV adx)) (m : Fin n → List UInt64) (r : List UInt64) : G1 (FpV adx) :=
  (Jac.weightedSum (List.ofFn B) (List.ofFn m)).add (H.scale r)

theorem hide_rep {B : Fin n → G1 (FpV adx)} {H : G1 (FpV adx)} {b : Fin n → ℕ} {h : ℕ} (hB : ∀ i, (B i).Rep (b i • gen1 (FpV adx)))
    (hH : H.Rep (h • gen1 (FpV adx))) (m : Fin n → List UInt64) (hm : ∀ i, (m i).length = 4) (r : List UInt64) :
    (hide B H m r).Rep ((∑ i, wordsVal (m i) * b i + wordsVal r * h) • gen1 (FpV adx)) := by
  have rs := weightedSum1_ofFn hB m hm
  rw [sum_smul_smul (c := ∑ i, wordsVal (m i) * b i) (q_smul_gen1 _) (fun i => wordsVal (m i)) b (by push_cast; rfl)] at rs
  have := Jac.add_rep (goodCurve1 (FpV adx)) rs (Jac.scale_rep (goodCurve1 (FpV adx)) hH r)
  rwa [← mul_nsmul', ← add_nsmul] at this

/-- The bases are multiples of the generator. -/
theorem C109_bases {B : Fin n → G1 (FpV adx)} (hB : ∀ i, Member1 (B i)) : ∃ b : Fin n → ℕ, ∀ i, (B i).Rep (b i • gen1 (FpV adx)) := by
  choose b h using fun i => exists_multiple1 (hB i)
  exact ⟨b, h⟩

/-- C109: two commitments are the same exactly if the differences of the entries are a relation between the bases. -/
theorem C109_equal {B : Fin n → G1 (FpV adx)} {H : G1 (FpV adx)} {b : Fin n → ℕ} {h : ℕ} (hB : ∀ i, (B i).Rep (b i • gen1 (FpV adx)))
    (hH : H.Rep (h • gen1 (FpV adx))) (m m' : Fin n → List UInt64) (hm : ∀ i, (m i).length = 4) (hm' : ∀ i, (m' i).length = 4)
    (r r' : List UInt64) :
    (hide B H m r).equal (hide B H m' r') = true ↔
      ∑ i, ((wordsVal (m i) : ZMod q) - wordsVal (m' i)) * b i + ((wordsVal r : ZMod q) - wordsVal r') * h = 0 := by
  rw [Jac.equal_iff (hide_rep hB hH m hm r) (hide_rep hB hH m' hm' r'), Keys.smul_gen1_eq_iff, ← ZMod.natCast_eq_natCast_iff']
  push_cast
  simp only [sub_mul, Finset.sum_sub_distrib]
  constructor <;> intro e <;> linear_combination e

/-- C109: the commitment hides the vector: for every vector there is exactly one random number below the group order with which it gives
a point, unless `H` is infinity. -/
theorem C109_hides {B : Fin n → G1 (FpV adx)} {H C : G1 (FpV adx)} (hB : ∀ i, Member1 (B i)) (hH : Member1 H) (h0 : H.isZero = false)
    (hC : Member1 C) (m : Fin n → List UInt64) (hm : ∀ i, (m i).length = 4) :
    ∃! r : List UInt64, r.length = 4 ∧ wordsVal r < q ∧ (hide B H m r).equal C = true := by
  obtain ⟨b, rB⟩ := C109_bases hB
  obtain ⟨h, rH⟩ := exists_multiple1 hH
  obtain ⟨c, rC⟩ := exists_multiple1 hC
  have hh : (h : ZMod q) ≠ 0 := fun e => by
    have := rH.isZero_iff.2 (by rw [smul_congr (b := 0) (q_smul_gen1 _) (by rw [e, Nat.cast_zero]), zero_nsmul])
    rw [h0] at this
    exact Bool.false_ne_true this
  have key : ∀ r : List UInt64, (hide B H m r).equal C = true ↔
      (wordsVal r : ZMod q) = ((c : ZMod q) - ∑ i, (wordsVal (m i) : ZMod q) * b i) / h := fun r => by
    rw [Jac.equal_iff (hide_rep rB rH m hm r) rC, Keys.smul_gen1_eq_iff, ← ZMod.natCast_eq_natCast_iff', eq_div_iff hh]
    push_cast
    constructor <;> intro e <;> linear_combination e
  obtain ⟨w, hl, hw⟩ := Keys.exists_words (ZMod.val_lt (((c : ZMod q) - ∑ i, (wordsVal (m i) : ZMod q) * (b i : ZMod q)) / (h : ZMod q)))
  refine ⟨w, ⟨hl, hw ▸ ZMod.val_lt _, (key w).2 (by rw [hw, ZMod.natCast_zmod_val])⟩, fun s ⟨h1, h2, h3⟩ =>
    wordsVal_inj (h1.trans hl.symm) ?_⟩
  rw [hw, ← (key s).1 h3, ZMod.val_natCast, Nat.mod_eq_of_lt h2]

/-- C109: commitments are added by `add`; the entries and the random numbers count modulo the group order. -/
theorem C109_add {B : Fin n → G1 (FpV adx)} {H : G1 (FpV adx)} (hB : ∀ i, Member1 (B i)) (hH : Member1 H)
    (m m' s : Fin n → List UInt64) (hm : ∀ i, (m i).length = 4) (hm' : ∀ i, (m' i).length = 4) (hs : ∀ i, (s i).length = 4)
    (r r' t : List UInt64) (es : ∀ i, wordsVal (s i) % q = (wordsVal (m i) + wordsVal (m' i)) % q)
    (et : wordsVal t % q = (wordsVal r + wordsVal r') % q) :
    ((hide B H m r).add (hide B H m' r')).equal (hide B H s t) = true := by
  obtain ⟨b, rB⟩ := C109_bases hB
  obtain ⟨h, rH⟩ := exists_multiple1 hH
  have ra := Jac.add_rep (goodCurve1 (FpV adx)) (hide_rep rB rH m hm r) (hide_rep rB rH m' hm' r')
  rw [← add_nsmul] at ra
  rw [Jac.equal_iff ra (hide_rep rB rH s hs t)]
  refine smul_congr (q_smul_gen1 _) ?_
  have e1 : ∀ i, (wordsVal (s i) : ZMod q) = wordsVal (m i) + wordsVal (m' i) := fun i => by
    rw [(ZMod.natCast_eq_natCast_iff' _ _ q).2 (es i)]; push_cast; rfl
  have e2 : (wordsVal t : ZMod q) = wordsVal r + wordsVal r' := by
    rw [(ZMod.natCast_eq_natCast_iff' _ _ q).2 et]; push_cast; rfl
  push_cast
  simp only [e1, e2, add_mul, Finset.sum_add_distrib]
  ring

/-- C109: who opens a commitment in two ways that differ in one entry has the factor between this base and `H`. -/
theorem C109_two_openings {B : Fin n → G1 (FpV adx)} {H : G1 (FpV adx)} (hB : ∀ i, Member1 (B i)) (hH : Member1 H)
    (m m' : Fin n → List UInt64) (hm : ∀ i, (m i).length = 4) (hm' : ∀ i, (m' i).length = 4) (r r' : List UInt64) (j : Fin n)
    (hj : ∀ i, i ≠ j → m i = m' i) (hne : wordsVal (m j) % q ≠ wordsVal (m' j) % q)
    (he : (hide B H m r).equal (hide B H m' r') = true) (a : List UInt64)
    (ha : (wordsVal a : ZMod q) * ((wordsVal (m j) : ZMod q) - wordsVal (m' j)) = (wordsVal r' : ZMod q) - wordsVal r) :
    (B j).equal (H.scale a) = true := by
  obtain ⟨b, rB⟩ := C109_bases hB
  obtain ⟨h, rH⟩ := exists_multiple1 hH
  have e := (C109_equal rB rH m m' hm hm' r r').1 he
  rw [Finset.sum_eq_single j (fun i _ hi => by rw [hj i hi, sub_self, zero_mul]) (fun h => absurd (Finset.mem_univ j) h)] at e
  have hd : (wordsVal (m j) : ZMod q) - wordsVal (m' j) ≠ 0 := fun h0 =>
    hne ((ZMod.natCast_eq_natCast_iff' _ _ q).1 (sub_eq_zero.1 h0))
  have rs := Jac.scale_rep (goodCurve1 (FpV adx)) rH a
  rw [← mul_nsmul'] at rs
  rw [Jac.equal_iff (rB j) rs]
  refine smul_congr (q_smul_gen1 _) (mul_left_cancel₀ hd ?_)
  push_cast
  linear_combination e - (h : ZMod q) * ha

/-- C109: and who has this factor can open every commitment with any other value of the entry. -/
theorem C109_trapdoor {B : Fin n → G1 (FpV adx)} {H : G1 (FpV adx)} (hB : ∀ i, Member1 (B i)) (hH : Member1 H)
    (m m' : Fin n → List UInt64) (hm : ∀ i, (m i).length = 4) (hm' : ∀ i, (m' i).length = 4) (r r' : List UInt64) (j : Fin n)
    (hj : ∀ i, i ≠ j → m i = m' i) (a : List UInt64) (ha : (B j).equal (H.scale a) = true)
    (hr : (wordsVal r' : ZMod q) = wordsVal r + wordsVal a * ((wordsVal (m j) : ZMod q) - wordsVal (m' j))) :
    (hide B H m r).equal (hide B H m' r') = true := by
  obtain ⟨b, rB⟩ := C109_bases hB
  obtain ⟨h, rH⟩ := exists_multiple1 hH
  have rs := Jac.scale_rep (goodCurve1 (FpV adx)) rH a
  rw [← mul_nsmul'] at rs
  rw [Jac.equal_iff (rB j) rs, Keys.smul_gen1_eq_iff, ← ZMod.natCast_eq_natCast_iff'] at ha
  push_cast at ha
  rw [C109_equal rB rH m m' hm hm' r r',
    Finset.sum_eq_single j (fun i _ hi => by rw [hj i hi, sub_self, zero_mul]) (fun h => absurd (Finset.mem_univ j) h), ha, hr]
  ring

/-- The bases 3 and 5 and `H = 2`. -/
def hideCase : Fin 2 → G1 (FpV adx) := fun i => (G1.one : G1 (FpV adx)).scale [if i = 0 then 3 else 5]

theorem hide_member (i : Fin 2) : Member1 (hideCase (adx := adx) i) := scale_member _

/-- There is a random number that makes the point 100 of the vector (1, 4). -/
example : ∃! r : List UInt64, r.length = 4 ∧ wordsVal r < q ∧
    (hide hideCase ((G1.one : G1 (FpV adx)).scale [2]) (fun i => if i = 0 then [1, 0, 0, 0] else [4, 0, 0, 0]) r).equal
      ((G1.one : G1 (FpV adx)).scale [100]) = true := by
  refine C109_hides hide_member (scale_member _) ?_ (scale_member _) _ (fun i => by split <;> rfl)
  rw [Bool.eq_false_iff, Ne, (Jac.scale_rep (goodCurve1 (FpV adx)) (G1.one_rep (K := FpV adx)) [2]).isZero_iff]
  have h := nsmul_inj_mod (x := gen1 (FpV adx)) (n := wordsVal [2]) (m := 0)
  rw [Keys.order_gen1, zero_nsmul] at h
  rw [h]
  decide +kernel

/-- The vectors (1, 4) with 8 and (3, 4) with 5 give the same point: 3 + 20 + 16 = 9 + 20 + 10. -/
theorem hide_case : (hide hideCase ((G1.one : G1 (FpV adx)).scale [2]) (fun i => if i = 0 then [1, 0, 0, 0] else [4, 0, 0, 0]) [8]).equal
    (hide hideCase ((G1.one : G1 (FpV adx)).scale [2]) (fun i => if i = 0 then [3, 0, 0, 0] else [4, 0, 0, 0]) [5]) = true := by
  have s1 := fun n => Jac.scale_rep (goodCurve1 (FpV adx)) (G1.one_rep (K := FpV adx)) [n]
  have v : wordsVal [1, 0, 0, 0] = 1 ∧ wordsVal [3, 0, 0, 0] = 3 ∧ wordsVal [8] = 8 ∧ wordsVal [5] = 5 ∧ wordsVal [3] = 3 ∧ wordsVal [2] = 2 := by
    decide +kernel
  obtain ⟨v1, v2, v3, v4, v5, v6⟩ := v
  rw [C109_equal (B := hideCase) (b := fun i => wordsVal [if i = 0 then 3 else 5]) (fun i => s1 _) (s1 2) _ _ (fun i => by split <;> rfl) (fun i => by split <;> rfl), Fin.sum_univ_two]
  simp only [if_true, Fin.one_eq_zero_iff, OfNat.ofNat_ne_one, if_false, v1, v2, v3, v4, v5, v6, sub_self, zero_mul]
  norm_num

/-- The factor between the base 3 and `H = 2` is 3/2, here `(q + 3) / 2`; it comes out of the two openings. -/
theorem hide_factor : (hideCase (adx := adx) 0).equal (((G1.one : G1 (FpV adx)).scale [2]).scale
    [0x7fffffff80000002, 0xa9ded2017fff2dff, 0x199cec0404d0ec02, 0x39f6d3a994cebea4]) = true := by
  refine C109_two_openings hide_member (scale_member _) _ _ (fun i => ?_) (fun i => ?_) _ _ 0 (fun i hi => ?_) ?_ hide_case _ ?_
  · split <;> rfl
  · split <;> rfl
  · rw [if_neg hi, if_neg hi]
  · decide +kernel
  · have e : (wordsVal [0x7fffffff80000002, 0xa9ded2017fff2dff, 0x199cec0404d0ec02, 0x39f6d3a994cebea4] * 2) % q = 3 % q ∧
      wordsVal [1, 0, 0, 0] = 1 ∧ wordsVal [3, 0, 0, 0] = 3 ∧ wordsVal [8] = 8 ∧ wordsVal [5] = 5 := by decide +kernel
    obtain ⟨e, v1, v2, v3, v4⟩ := e
    have e := (ZMod.natCast_eq_natCast_iff' _ _ q).2 e
    push_cast at e
    simp only [if_true, v1, v2, v3, v4]
    push_cast
    linear_combination -e

/-- With it the vector (1, 4) with 8 is opened as (7, 4) with 8 - 9 = q - 1. -/
example : (hide hideCase ((G1.one : G1 (FpV adx)).scale [2]) (fun i => if i = 0 then [1, 0, 0, 0] else [4, 0, 0, 0]) [8]).equal
    (hide hideCase ((G1.one : G1 (FpV adx)).scale [2]) (fun i => if i = 0 then [7, 0, 0, 0] else [4, 0, 0, 0])
      [0xffffffff00000000, 0x53bda402fffe5bfe, 0x3339d80809a1d805, 0x73eda753299d7d48]) = true := by
  refine C109_trapdoor hide_member (scale_member _) _ _ (fun i => ?_) (fun i => ?_) _ _ 0 (fun i hi => ?_) _ hide_factor ?_
  · split <;> rfl
  · split <;> rfl
  · rw [if_neg hi, if_neg hi]
  · have e : (wordsVal [0x7fffffff80000002, 0xa9ded2017fff2dff, 0x199cec0404d0ec02, 0x39f6d3a994cebea4] * 2) % q = 3 % q ∧
      (wordsVal [0xffffffff00000000, 0x53bda402fffe5bfe, 0x3339d80809a1d805, 0x73eda753299d7d48] + 1) % q = 0 % q ∧
      wordsVal [1, 0, 0, 0] = 1 ∧ wordsVal [7, 0, 0, 0] = 7 ∧ wordsVal [8] = 8 := by decide +kernel
    obtain ⟨e, e', v1, v2, v3⟩ := e
    have e := (ZMod.natCast_eq_natCast_iff' _ _ q).2 e
    have e' := (ZMod.natCast_eq_natCast_iff' _ _ q).2 e'
    push_cast at e e'
    simp only [if_true, v1, v2, v3]
    push_cast
    linear_combination e' + 3 * e

/-- The sum of the commitments to (1, 4) and (3, 4) is one to (4, 8). -/
example : ((hide hideCase ((G1.one : G1 (FpV adx)).scale [2]) (fun i => if i = 0 then [1, 0, 0, 0] else [4, 0, 0, 0]) [8]).add
    (hide hideCase ((G1.one : G1 (FpV adx)).scale [2]) (fun i => if i = 0 then [3, 0, 0, 0] else [4, 0, 0, 0]) [5])).equal
    (hide hideCase ((G1.one : G1 (FpV adx)).scale [2]) (fun i => if i = 0 then [4, 0, 0, 0] else [8, 0, 0, 0]) [13]) = true := by
  refine C109_add hide_member (scale_member _) _ _ _ (fun i => ?_) (fun i => ?_) (fun i => ?_) _ _ _ (fun i => ?_) (by decide +kernel)
  · split <;> rfl
  · split <;> rfl
  · split <;> rfl
  · split <;> decide +kernel

end Bls.Props
