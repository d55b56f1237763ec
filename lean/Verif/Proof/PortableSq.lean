import Verif.Proof.Portable

/-! The portable `_square` is correct on operands whose doubled products of limbs leave room for three carries. Generated from the
let chains of the model by a script; every step is checked by Lean. -/

namespace Bls

set_option exponentiation.threshold 1000

/-- The doubled product of two words leaves room for three more carries below bit 128. -/
def Room (a b : UInt64) : Prop := 2 * (a.toNat * b.toNat) % 2 ^ 128 < 2 ^ 128 - 3 * 2 ^ 64

theorem room_of_lt {a b : UInt64} (hb : b.toNat < 2 ^ 61) : Room a b ∧ a.toNat * b.toNat < 2 ^ 125 := by
  have h : a.toNat * b.toNat < 2 ^ 64 * 2 ^ 61 := Nat.mul_lt_mul'' (u64_lt a) hb
  unfold Room
  generalize a.toNat * b.toNat = ab at *
  omega

theorem madd2s_spec (a b c d e : UInt64) (h : Room a b) (hd : d.toNat ≤ 1) :
    (madd2s a b c d e).2.2.toNat + 2 ^ 64 * (madd2s a b c d e).2.1.toNat + 2 ^ 128 * (madd2s a b c d e).1.toNat =
      2 * (a.toNat * b.toNat) + c.toNat + e.toNat + 2 ^ 64 * d.toNat ∧ (madd2s a b c d e).1.toNat ≤ 1 ∧
      (a.toNat * b.toNat < 2 ^ 125 → (madd2s a b c d e).1.toNat = 0) := by
  have hm := mul64_spec a b
  have hp := u64_mul_le a b
  have hc := u64_lt c
  have he := u64_lt e
  unfold Room at h
  simp only [madd2s]
  generalize mul64 a b = m at *
  have m1 := u64_lt m.1
  have m2 := u64_lt m.2
  generalize a.toNat * b.toNat = ab at *
  have e1 := add64_spec m.2 m.2 0 (by simp) (Or.inr (by simp))
  generalize add64 m.2 m.2 0 = r1 at *
  have r1l := u64_lt r1.1
  have hm1 : m.1.toNat ≠ 2 ^ 64 - 1 := by omega
  have e2 := add64_spec m.1 m.1 r1.2 e1.2 (Or.inl hm1)
  generalize add64 m.1 m.1 r1.2 = r2 at *
  have r2l := u64_lt r2.1
  simp only [UInt64.toNat_zero, add_zero] at e1 e2
  have hv : 2 * ab = r1.1.toNat + 2 ^ 64 * r2.1.toNat + 2 ^ 128 * r2.2.toNat := by omega
  have hr : r2.1.toNat < 2 ^ 64 - 3 := by omega
  have hz : ab < 2 ^ 125 → r2.2.toNat = 0 := by omega
  have e3 := add64_spec c e 0 (by simp) (Or.inr (by simp))
  generalize add64 c e 0 = r3 at *
  have e4 := add64_spec_zero r2.1 r3.2 e3.2
  generalize add64 r2.1 0 r3.2 = r4 at *
  have e5 := add64_spec r1.1 r3.1 0 (by simp) (Or.inr (by simp))
  generalize add64 r1.1 r3.1 0 = r5 at *
  have e6 := add64_spec_zero r4.1 r5.2 e5.2
  generalize add64 r4.1 0 r5.2 = r6 at *
  have e7 := add64_spec_zero r6.1 d hd
  generalize add64 r6.1 0 d = r7 at *
  have := u64_lt r3.1
  have := u64_lt r4.1
  have := u64_lt r5.1
  have := u64_lt r6.1
  have := u64_lt r7.1
  simp only [UInt64.toNat_zero, add_zero] at *
  refine ⟨?_, e2.2, hz⟩
  omega

theorem madd1s_spec (a b d e : UInt64) (h : Room a b) (hd : d.toNat ≤ 1) :
    (madd1s a b d e).2.2.toNat + 2 ^ 64 * (madd1s a b d e).2.1.toNat + 2 ^ 128 * (madd1s a b d e).1.toNat =
      2 * (a.toNat * b.toNat) + e.toNat + 2 ^ 64 * d.toNat ∧ (madd1s a b d e).1.toNat ≤ 1 ∧
      (a.toNat * b.toNat < 2 ^ 125 → (madd1s a b d e).1.toNat = 0) := by
  have hm := mul64_spec a b
  have hp := u64_mul_le a b
  have he := u64_lt e
  unfold Room at h
  simp only [madd1s]
  generalize mul64 a b = m at *
  have m1 := u64_lt m.1
  have m2 := u64_lt m.2
  generalize a.toNat * b.toNat = ab at *
  have e1 := add64_spec m.2 m.2 0 (by simp) (Or.inr (by simp))
  generalize add64 m.2 m.2 0 = r1 at *
  have r1l := u64_lt r1.1
  have hm1 : m.1.toNat ≠ 2 ^ 64 - 1 := by omega
  have e2 := add64_spec m.1 m.1 r1.2 e1.2 (Or.inl hm1)
  generalize add64 m.1 m.1 r1.2 = r2 at *
  have r2l := u64_lt r2.1
  simp only [UInt64.toNat_zero, add_zero] at e1 e2
  have hv : 2 * ab = r1.1.toNat + 2 ^ 64 * r2.1.toNat + 2 ^ 128 * r2.2.toNat := by omega
  have hr : r2.1.toNat < 2 ^ 64 - 3 := by omega
  have hz : ab < 2 ^ 125 → r2.2.toNat = 0 := by omega
  have e5 := add64_spec r1.1 e 0 (by simp) (Or.inr (by simp))
  generalize add64 r1.1 e 0 = r5 at *
  have e6 := add64_spec_zero r2.1 r5.2 e5.2
  generalize add64 r2.1 0 r5.2 = r6 at *
  have e7 := add64_spec_zero r6.1 d hd
  generalize add64 r6.1 0 d = r7 at *
  have := u64_lt r5.1
  have := u64_lt r6.1
  have := u64_lt r7.1
  simp only [UInt64.toNat_zero, add_zero] at *
  refine ⟨?_, e2.2, hz⟩
  omega

theorem madd2sb_spec (a b c e : UInt64) (h : Room a b) :
    (madd2sb a b c e).2.2.toNat + 2 ^ 64 * (madd2sb a b c e).2.1.toNat + 2 ^ 128 * (madd2sb a b c e).1.toNat =
      2 * (a.toNat * b.toNat) + c.toNat + e.toNat ∧ (madd2sb a b c e).1.toNat ≤ 1 ∧
      (a.toNat * b.toNat < 2 ^ 125 → (madd2sb a b c e).1.toNat = 0) := by
  have hm := mul64_spec a b
  have hp := u64_mul_le a b
  have hc := u64_lt c
  have he := u64_lt e
  unfold Room at h
  simp only [madd2sb]
  generalize mul64 a b = m at *
  have m1 := u64_lt m.1
  have m2 := u64_lt m.2
  generalize a.toNat * b.toNat = ab at *
  have e1 := add64_spec m.2 m.2 0 (by simp) (Or.inr (by simp))
  generalize add64 m.2 m.2 0 = r1 at *
  have r1l := u64_lt r1.1
  have hm1 : m.1.toNat ≠ 2 ^ 64 - 1 := by omega
  have e2 := add64_spec m.1 m.1 r1.2 e1.2 (Or.inl hm1)
  generalize add64 m.1 m.1 r1.2 = r2 at *
  have r2l := u64_lt r2.1
  simp only [UInt64.toNat_zero, add_zero] at e1 e2
  have hv : 2 * ab = r1.1.toNat + 2 ^ 64 * r2.1.toNat + 2 ^ 128 * r2.2.toNat := by omega
  have hr : r2.1.toNat < 2 ^ 64 - 3 := by omega
  have hz : ab < 2 ^ 125 → r2.2.toNat = 0 := by omega
  have e3 := add64_spec c e 0 (by simp) (Or.inr (by simp))
  generalize add64 c e 0 = r3 at *
  have e4 := add64_spec_zero r2.1 r3.2 e3.2
  generalize add64 r2.1 0 r3.2 = r4 at *
  have e5 := add64_spec r1.1 r3.1 0 (by simp) (Or.inr (by simp))
  generalize add64 r1.1 r3.1 0 = r5 at *
  have e6 := add64_spec_zero r4.1 r5.2 e5.2
  generalize add64 r4.1 0 r5.2 = r6 at *
  have := u64_lt r3.1
  have := u64_lt r4.1
  have := u64_lt r5.1
  have := u64_lt r6.1
  simp only [UInt64.toNat_zero, add_zero] at *
  refine ⟨?_, e2.2, hz⟩
  omega

theorem madd1sb_spec (a b e : UInt64) (h : Room a b) :
    (madd1sb a b e).2.2.toNat + 2 ^ 64 * (madd1sb a b e).2.1.toNat + 2 ^ 128 * (madd1sb a b e).1.toNat =
      2 * (a.toNat * b.toNat) + e.toNat ∧ (madd1sb a b e).1.toNat ≤ 1 ∧
      (a.toNat * b.toNat < 2 ^ 125 → (madd1sb a b e).1.toNat = 0) := by
  have hm := mul64_spec a b
  have hp := u64_mul_le a b
  have he := u64_lt e
  unfold Room at h
  simp only [madd1sb]
  generalize mul64 a b = m at *
  have m1 := u64_lt m.1
  have m2 := u64_lt m.2
  generalize a.toNat * b.toNat = ab at *
  have e1 := add64_spec m.2 m.2 0 (by simp) (Or.inr (by simp))
  generalize add64 m.2 m.2 0 = r1 at *
  have r1l := u64_lt r1.1
  have hm1 : m.1.toNat ≠ 2 ^ 64 - 1 := by omega
  have e2 := add64_spec m.1 m.1 r1.2 e1.2 (Or.inl hm1)
  generalize add64 m.1 m.1 r1.2 = r2 at *
  have r2l := u64_lt r2.1
  simp only [UInt64.toNat_zero, add_zero] at e1 e2
  have hv : 2 * ab = r1.1.toNat + 2 ^ 64 * r2.1.toNat + 2 ^ 128 * r2.2.toNat := by omega
  have hr : r2.1.toNat < 2 ^ 64 - 3 := by omega
  have hz : ab < 2 ^ 125 → r2.2.toNat = 0 := by omega
  have e5 := add64_spec r1.1 e 0 (by simp) (Or.inr (by simp))
  generalize add64 r1.1 e 0 = r5 at *
  have e6 := add64_spec_zero r2.1 r5.2 e5.2
  generalize add64 r2.1 0 r5.2 = r6 at *
  have := u64_lt r5.1
  have := u64_lt r6.1
  simp only [UInt64.toNat_zero, add_zero] at *
  refine ⟨?_, e2.2, hz⟩
  omega

/-- The doubled products of the lower five limbs leave room for three more carries, and the highest limb is below `2^61`. -/
def Fp.Roomy (x : Fp) : Prop :=
  Room x.d0 x.d1 ∧ Room x.d0 x.d2 ∧ Room x.d0 x.d3 ∧ Room x.d0 x.d4 ∧ Room x.d1 x.d2 ∧ Room x.d1 x.d3 ∧ Room x.d1 x.d4 ∧ Room x.d2 x.d3 ∧ Room x.d2 x.d4 ∧ Room x.d3 x.d4 ∧
    x.d5.toNat < 2 ^ 61

namespace Portable

theorem sqRound0_spec (x : Fp) (hx : x.Roomy) :
    ∃ m k, m < 2 ^ 64 ∧ 2 ^ 64 * ((sqRound0 x).val + 2 ^ 384 * k) =
      (x.d0.toNat * x.d0.toNat * 2 ^ 0 + 2 * (x.d0.toNat * x.d1.toNat) * 2 ^ 64 + 2 * (x.d0.toNat * x.d2.toNat) * 2 ^ 128 + 2 * (x.d0.toNat * x.d3.toNat) * 2 ^ 192 + 2 * (x.d0.toNat * x.d4.toNat) * 2 ^ 256 + 2 * (x.d0.toNat * x.d5.toNat) * 2 ^ 320) + m * Bls.p := by
  obtain ⟨h01, h02, h03, h04, h12, h13, h14, h23, h24, h34, h5⟩ := hx
  simp only [sqRound0]
  have H1 := mul64_spec x.d0 x.d0
  generalize mul64 x.d0 x.d0 = r1 at *
  have hm := inp_low r1.2
  have hm' := u64_lt (r1.2 * INP)
  generalize r1.2 * INP = m at *
  obtain ⟨lo, hlo, C⟩ := madd0_spec m MODULUS.d0 r1.2
  generalize madd0 m MODULUS.d0 r1.2 = c at *
  have H2 := madd1sb_spec x.d0 x.d1 r1.1 h01
  generalize madd1sb x.d0 x.d1 r1.1 = r2 at *
  have H3 := madd2_spec m MODULUS.d1 r2.2.2 c
  generalize madd2 m MODULUS.d1 r2.2.2 c = r3 at *
  have H4 := madd1s_spec x.d0 x.d2 r2.1 r2.2.1 h02 H2.2.1
  generalize madd1s x.d0 x.d2 r2.1 r2.2.1 = r4 at *
  have H5 := madd2_spec m MODULUS.d2 r4.2.2 r3.1
  generalize madd2 m MODULUS.d2 r4.2.2 r3.1 = r5 at *
  have H6 := madd1s_spec x.d0 x.d3 r4.1 r4.2.1 h03 H4.2.1
  generalize madd1s x.d0 x.d3 r4.1 r4.2.1 = r6 at *
  have H7 := madd2_spec m MODULUS.d3 r6.2.2 r5.1
  generalize madd2 m MODULUS.d3 r6.2.2 r5.1 = r7 at *
  have H8 := madd1s_spec x.d0 x.d4 r6.1 r6.2.1 h04 H6.2.1
  generalize madd1s x.d0 x.d4 r6.1 r6.2.1 = r8 at *
  have H9 := madd2_spec m MODULUS.d4 r8.2.2 r7.1
  generalize madd2 m MODULUS.d4 r8.2.2 r7.1 = r9 at *
  have H10 := madd1s_spec x.d0 x.d5 r8.1 r8.2.1 (room_of_lt h5).1 H8.2.1
  have Z := H10.2.2 (room_of_lt h5).2
  rw [Z, mul_zero, add_zero] at H10
  generalize madd1s x.d0 x.d5 r8.1 r8.2.1 = r10 at *
  obtain ⟨k, H11⟩ := madd3_spec m MODULUS.d5 r10.2.2 r9.1 r10.2.1
  generalize madd3 m MODULUS.d5 r10.2.2 r9.1 r10.2.1 = r11 at *
  have hl : lo = 0 := by
    generalize m.toNat * MODULUS.d0.toNat = mm at *
    clear H1 H2 H3 H4 H5 H6 H7 H8 H9 H10 H11
    omega
  subst hl
  refine ⟨m.toNat, k, hm', ?_⟩
  rw [← MODULUS_val]
  simp only [Fp.val]
  linear_combination H1 + C + 2 ^ 64 * H2.1 + 2 ^ 64 * H3 + 2 ^ 128 * H4.1 + 2 ^ 128 * H5 + 2 ^ 192 * H6.1 + 2 ^ 192 * H7 + 2 ^ 256 * H8.1 + 2 ^ 256 * H9 + 2 ^ 320 * H10.1 + 2 ^ 320 * H11

theorem sqRound1_spec (x p : Fp) (hx : x.Roomy) :
    ∃ m k, m < 2 ^ 64 ∧ 2 ^ 64 * ((sqRound1 x p).val + 2 ^ 384 * k) =
      p.val + (x.d1.toNat * x.d1.toNat * 2 ^ 64 + 2 * (x.d1.toNat * x.d2.toNat) * 2 ^ 128 + 2 * (x.d1.toNat * x.d3.toNat) * 2 ^ 192 + 2 * (x.d1.toNat * x.d4.toNat) * 2 ^ 256 + 2 * (x.d1.toNat * x.d5.toNat) * 2 ^ 320) + m * Bls.p := by
  obtain ⟨h01, h02, h03, h04, h12, h13, h14, h23, h24, h34, h5⟩ := hx
  simp only [sqRound1]
  have hm := inp_low p.d0
  have hm' := u64_lt (p.d0 * INP)
  generalize p.d0 * INP = m at *
  obtain ⟨lo, hlo, C⟩ := madd0_spec m MODULUS.d0 p.d0
  generalize madd0 m MODULUS.d0 p.d0 = c at *
  have H1 := madd1_spec x.d1 x.d1 p.d1
  generalize madd1 x.d1 x.d1 p.d1 = r1 at *
  have H2 := madd2_spec m MODULUS.d1 r1.2 c
  generalize madd2 m MODULUS.d1 r1.2 c = r2 at *
  have H3 := madd2sb_spec x.d1 x.d2 p.d2 r1.1 h12
  generalize madd2sb x.d1 x.d2 p.d2 r1.1 = r3 at *
  have H4 := madd2_spec m MODULUS.d2 r3.2.2 r2.1
  generalize madd2 m MODULUS.d2 r3.2.2 r2.1 = r4 at *
  have H5 := madd2s_spec x.d1 x.d3 p.d3 r3.1 r3.2.1 h13 H3.2.1
  generalize madd2s x.d1 x.d3 p.d3 r3.1 r3.2.1 = r5 at *
  have H6 := madd2_spec m MODULUS.d3 r5.2.2 r4.1
  generalize madd2 m MODULUS.d3 r5.2.2 r4.1 = r6 at *
  have H7 := madd2s_spec x.d1 x.d4 p.d4 r5.1 r5.2.1 h14 H5.2.1
  generalize madd2s x.d1 x.d4 p.d4 r5.1 r5.2.1 = r7 at *
  have H8 := madd2_spec m MODULUS.d4 r7.2.2 r6.1
  generalize madd2 m MODULUS.d4 r7.2.2 r6.1 = r8 at *
  have H9 := madd2s_spec x.d1 x.d5 p.d5 r7.1 r7.2.1 (room_of_lt h5).1 H7.2.1
  have Z := H9.2.2 (room_of_lt h5).2
  rw [Z, mul_zero, add_zero] at H9
  generalize madd2s x.d1 x.d5 p.d5 r7.1 r7.2.1 = r9 at *
  obtain ⟨k, H10⟩ := madd3_spec m MODULUS.d5 r9.2.2 r8.1 r9.2.1
  generalize madd3 m MODULUS.d5 r9.2.2 r8.1 r9.2.1 = r10 at *
  have hl : lo = 0 := by
    generalize m.toNat * MODULUS.d0.toNat = mm at *
    clear H1 H2 H3 H4 H5 H6 H7 H8 H9 H10
    omega
  subst hl
  refine ⟨m.toNat, k, hm', ?_⟩
  rw [← MODULUS_val]
  simp only [Fp.val]
  linear_combination C + 2 ^ 64 * H1 + 2 ^ 64 * H2 + 2 ^ 128 * H3.1 + 2 ^ 128 * H4 + 2 ^ 192 * H5.1 + 2 ^ 192 * H6 + 2 ^ 256 * H7.1 + 2 ^ 256 * H8 + 2 ^ 320 * H9.1 + 2 ^ 320 * H10

theorem sqRound2_spec (x p : Fp) (hx : x.Roomy) :
    ∃ m k, m < 2 ^ 64 ∧ 2 ^ 64 * ((sqRound2 x p).val + 2 ^ 384 * k) =
      p.val + (x.d2.toNat * x.d2.toNat * 2 ^ 128 + 2 * (x.d2.toNat * x.d3.toNat) * 2 ^ 192 + 2 * (x.d2.toNat * x.d4.toNat) * 2 ^ 256 + 2 * (x.d2.toNat * x.d5.toNat) * 2 ^ 320) + m * Bls.p := by
  obtain ⟨h01, h02, h03, h04, h12, h13, h14, h23, h24, h34, h5⟩ := hx
  simp only [sqRound2]
  have hm := inp_low p.d0
  have hm' := u64_lt (p.d0 * INP)
  generalize p.d0 * INP = m at *
  obtain ⟨lo, hlo, C⟩ := madd0_spec m MODULUS.d0 p.d0
  generalize madd0 m MODULUS.d0 p.d0 = c at *
  have H1 := madd2_spec m MODULUS.d1 p.d1 c
  generalize madd2 m MODULUS.d1 p.d1 c = r1 at *
  have H2 := madd1_spec x.d2 x.d2 p.d2
  generalize madd1 x.d2 x.d2 p.d2 = r2 at *
  have H3 := madd2_spec m MODULUS.d2 r2.2 r1.1
  generalize madd2 m MODULUS.d2 r2.2 r1.1 = r3 at *
  have H4 := madd2sb_spec x.d2 x.d3 p.d3 r2.1 h23
  generalize madd2sb x.d2 x.d3 p.d3 r2.1 = r4 at *
  have H5 := madd2_spec m MODULUS.d3 r4.2.2 r3.1
  generalize madd2 m MODULUS.d3 r4.2.2 r3.1 = r5 at *
  have H6 := madd2s_spec x.d2 x.d4 p.d4 r4.1 r4.2.1 h24 H4.2.1
  generalize madd2s x.d2 x.d4 p.d4 r4.1 r4.2.1 = r6 at *
  have H7 := madd2_spec m MODULUS.d4 r6.2.2 r5.1
  generalize madd2 m MODULUS.d4 r6.2.2 r5.1 = r7 at *
  have H8 := madd2s_spec x.d2 x.d5 p.d5 r6.1 r6.2.1 (room_of_lt h5).1 H6.2.1
  have Z := H8.2.2 (room_of_lt h5).2
  rw [Z, mul_zero, add_zero] at H8
  generalize madd2s x.d2 x.d5 p.d5 r6.1 r6.2.1 = r8 at *
  obtain ⟨k, H9⟩ := madd3_spec m MODULUS.d5 r8.2.2 r7.1 r8.2.1
  generalize madd3 m MODULUS.d5 r8.2.2 r7.1 r8.2.1 = r9 at *
  have hl : lo = 0 := by
    generalize m.toNat * MODULUS.d0.toNat = mm at *
    clear H1 H2 H3 H4 H5 H6 H7 H8 H9
    omega
  subst hl
  refine ⟨m.toNat, k, hm', ?_⟩
  rw [← MODULUS_val]
  simp only [Fp.val]
  linear_combination C + 2 ^ 64 * H1 + 2 ^ 128 * H2 + 2 ^ 128 * H3 + 2 ^ 192 * H4.1 + 2 ^ 192 * H5 + 2 ^ 256 * H6.1 + 2 ^ 256 * H7 + 2 ^ 320 * H8.1 + 2 ^ 320 * H9

theorem sqRound3_spec (x p : Fp) (hx : x.Roomy) :
    ∃ m k, m < 2 ^ 64 ∧ 2 ^ 64 * ((sqRound3 x p).val + 2 ^ 384 * k) =
      p.val + (x.d3.toNat * x.d3.toNat * 2 ^ 192 + 2 * (x.d3.toNat * x.d4.toNat) * 2 ^ 256 + 2 * (x.d3.toNat * x.d5.toNat) * 2 ^ 320) + m * Bls.p := by
  obtain ⟨h01, h02, h03, h04, h12, h13, h14, h23, h24, h34, h5⟩ := hx
  simp only [sqRound3]
  have hm := inp_low p.d0
  have hm' := u64_lt (p.d0 * INP)
  generalize p.d0 * INP = m at *
  obtain ⟨lo, hlo, C⟩ := madd0_spec m MODULUS.d0 p.d0
  generalize madd0 m MODULUS.d0 p.d0 = c at *
  have H1 := madd2_spec m MODULUS.d1 p.d1 c
  generalize madd2 m MODULUS.d1 p.d1 c = r1 at *
  have H2 := madd2_spec m MODULUS.d2 p.d2 r1.1
  generalize madd2 m MODULUS.d2 p.d2 r1.1 = r2 at *
  have H3 := madd1_spec x.d3 x.d3 p.d3
  generalize madd1 x.d3 x.d3 p.d3 = r3 at *
  have H4 := madd2_spec m MODULUS.d3 r3.2 r2.1
  generalize madd2 m MODULUS.d3 r3.2 r2.1 = r4 at *
  have H5 := madd2sb_spec x.d3 x.d4 p.d4 r3.1 h34
  generalize madd2sb x.d3 x.d4 p.d4 r3.1 = r5 at *
  have H6 := madd2_spec m MODULUS.d4 r5.2.2 r4.1
  generalize madd2 m MODULUS.d4 r5.2.2 r4.1 = r6 at *
  have H7 := madd2s_spec x.d3 x.d5 p.d5 r5.1 r5.2.1 (room_of_lt h5).1 H5.2.1
  have Z := H7.2.2 (room_of_lt h5).2
  rw [Z, mul_zero, add_zero] at H7
  generalize madd2s x.d3 x.d5 p.d5 r5.1 r5.2.1 = r7 at *
  obtain ⟨k, H8⟩ := madd3_spec m MODULUS.d5 r7.2.2 r6.1 r7.2.1
  generalize madd3 m MODULUS.d5 r7.2.2 r6.1 r7.2.1 = r8 at *
  have hl : lo = 0 := by
    generalize m.toNat * MODULUS.d0.toNat = mm at *
    clear H1 H2 H3 H4 H5 H6 H7 H8
    omega
  subst hl
  refine ⟨m.toNat, k, hm', ?_⟩
  rw [← MODULUS_val]
  simp only [Fp.val]
  linear_combination C + 2 ^ 64 * H1 + 2 ^ 128 * H2 + 2 ^ 192 * H3 + 2 ^ 192 * H4 + 2 ^ 256 * H5.1 + 2 ^ 256 * H6 + 2 ^ 320 * H7.1 + 2 ^ 320 * H8

theorem sqRound4_spec (x p : Fp) (hx : x.Roomy) :
    ∃ m k, m < 2 ^ 64 ∧ 2 ^ 64 * ((sqRound4 x p).val + 2 ^ 384 * k) =
      p.val + (x.d4.toNat * x.d4.toNat * 2 ^ 256 + 2 * (x.d4.toNat * x.d5.toNat) * 2 ^ 320) + m * Bls.p := by
  obtain ⟨h01, h02, h03, h04, h12, h13, h14, h23, h24, h34, h5⟩ := hx
  simp only [sqRound4]
  have hm := inp_low p.d0
  have hm' := u64_lt (p.d0 * INP)
  generalize p.d0 * INP = m at *
  obtain ⟨lo, hlo, C⟩ := madd0_spec m MODULUS.d0 p.d0
  generalize madd0 m MODULUS.d0 p.d0 = c at *
  have H1 := madd2_spec m MODULUS.d1 p.d1 c
  generalize madd2 m MODULUS.d1 p.d1 c = r1 at *
  have H2 := madd2_spec m MODULUS.d2 p.d2 r1.1
  generalize madd2 m MODULUS.d2 p.d2 r1.1 = r2 at *
  have H3 := madd2_spec m MODULUS.d3 p.d3 r2.1
  generalize madd2 m MODULUS.d3 p.d3 r2.1 = r3 at *
  have H4 := madd1_spec x.d4 x.d4 p.d4
  generalize madd1 x.d4 x.d4 p.d4 = r4 at *
  have H5 := madd2_spec m MODULUS.d4 r4.2 r3.1
  generalize madd2 m MODULUS.d4 r4.2 r3.1 = r5 at *
  have H6 := madd2sb_spec x.d4 x.d5 p.d5 r4.1 (room_of_lt h5).1
  have Z := H6.2.2 (room_of_lt h5).2
  rw [Z, mul_zero, add_zero] at H6
  generalize madd2sb x.d4 x.d5 p.d5 r4.1 = r6 at *
  obtain ⟨k, H7⟩ := madd3_spec m MODULUS.d5 r6.2.2 r5.1 r6.2.1
  generalize madd3 m MODULUS.d5 r6.2.2 r5.1 r6.2.1 = r7 at *
  have hl : lo = 0 := by
    generalize m.toNat * MODULUS.d0.toNat = mm at *
    clear H1 H2 H3 H4 H5 H6 H7
    omega
  subst hl
  refine ⟨m.toNat, k, hm', ?_⟩
  rw [← MODULUS_val]
  simp only [Fp.val]
  linear_combination C + 2 ^ 64 * H1 + 2 ^ 128 * H2 + 2 ^ 192 * H3 + 2 ^ 256 * H4 + 2 ^ 256 * H5 + 2 ^ 320 * H6.1 + 2 ^ 320 * H7

theorem sqRound5_spec (x p : Fp) (hx : x.Roomy) :
    ∃ m k, m < 2 ^ 64 ∧ 2 ^ 64 * ((sqRound5 x p).val + 2 ^ 384 * k) =
      p.val + (x.d5.toNat * x.d5.toNat * 2 ^ 320) + m * Bls.p := by
  obtain ⟨h01, h02, h03, h04, h12, h13, h14, h23, h24, h34, h5⟩ := hx
  simp only [sqRound5]
  have hm := inp_low p.d0
  have hm' := u64_lt (p.d0 * INP)
  generalize p.d0 * INP = m at *
  obtain ⟨lo, hlo, C⟩ := madd0_spec m MODULUS.d0 p.d0
  generalize madd0 m MODULUS.d0 p.d0 = c at *
  have H1 := madd2_spec m MODULUS.d1 p.d1 c
  generalize madd2 m MODULUS.d1 p.d1 c = r1 at *
  have H2 := madd2_spec m MODULUS.d2 p.d2 r1.1
  generalize madd2 m MODULUS.d2 p.d2 r1.1 = r2 at *
  have H3 := madd2_spec m MODULUS.d3 p.d3 r2.1
  generalize madd2 m MODULUS.d3 p.d3 r2.1 = r3 at *
  have H4 := madd2_spec m MODULUS.d4 p.d4 r3.1
  generalize madd2 m MODULUS.d4 p.d4 r3.1 = r4 at *
  have H5 := madd1_spec x.d5 x.d5 p.d5
  generalize madd1 x.d5 x.d5 p.d5 = r5 at *
  obtain ⟨k, H6⟩ := madd3_spec m MODULUS.d5 r5.2 r4.1 r5.1
  generalize madd3 m MODULUS.d5 r5.2 r4.1 r5.1 = r6 at *
  have hl : lo = 0 := by
    generalize m.toNat * MODULUS.d0.toNat = mm at *
    clear H1 H2 H3 H4 H5 H6
    omega
  subst hl
  refine ⟨m.toNat, k, hm', ?_⟩
  rw [← MODULUS_val]
  simp only [Fp.val]
  linear_combination C + 2 ^ 64 * H1 + 2 ^ 128 * H2 + 2 ^ 192 * H3 + 2 ^ 256 * H4 + 2 ^ 320 * H5 + 2 ^ 320 * H6

/-- One round, given that the accumulator stays in six words. -/
theorem sq_exact {T t S v : Nat} {x : Fp} (hx : x.val < Bls.p) (hv : v < 2 ^ 64)
    (hS : S ≤ 2 * x.val) (ht : t ≤ 2 * x.val + Bls.p)
    (h : ∃ m k, m < 2 ^ 64 ∧ 2 ^ 64 * (T + 2 ^ 384 * k) = t + v * S + m * Bls.p) :
    ∃ m, m < 2 ^ 64 ∧ 2 ^ 64 * T = t + v * S + m * Bls.p ∧ T ≤ 2 * x.val + Bls.p := by
  obtain ⟨m, k, hm, h⟩ := h
  have h1 : v * S ≤ (2 ^ 64 - 1) * (2 * x.val) := Nat.mul_le_mul (by omega) hS
  have h2 : m * Bls.p ≤ (2 ^ 64 - 1) * Bls.p := Nat.mul_le_mul_right _ (by omega)
  have hk : k = 0 := by
    rcases Nat.eq_zero_or_pos k with h0 | h0
    · exact h0
    · exfalso; generalize v * S = a at *; generalize m * Bls.p = b at *
      unfold Bls.p at *; omega
  subst hk
  refine ⟨m, hm, by simpa using h, ?_⟩
  generalize v * S = a at *; generalize m * Bls.p = b at *
  unfold Bls.p at *; omega

/-- The portable `_square` is a correct Montgomery squaring when `Roomy`. -/
theorem square_spec (x : Fp) (hx : x.val < Bls.p) (hh : x.Roomy) :
    (square x).val < Bls.p ∧ 2 ^ 384 * (square x).val % Bls.p = x.val * x.val % Bls.p := by
  have hval : x.val = x.d0.toNat + 2 ^ 64 * (x.d1.toNat + 2 ^ 64 * (x.d2.toNat + 2 ^ 64 *
    (x.d3.toNat + 2 ^ 64 * (x.d4.toNat + 2 ^ 64 * x.d5.toNat)))) := rfl
  obtain ⟨m0, hm0, e0, b0⟩ := sq_exact (T := (sqRound0 x).val) (t := 0)
    (S := x.d0.toNat * 2 ^ 0 + 2 * x.d1.toNat * 2 ^ 64 + 2 * x.d2.toNat * 2 ^ 128 + 2 * x.d3.toNat * 2 ^ 192 + 2 * x.d4.toNat * 2 ^ 256 + 2 * x.d5.toNat * 2 ^ 320)
    (v := x.d0.toNat) hx (u64_lt _) (by omega) (Nat.zero_le _) (by
      obtain ⟨m, k, hm, h⟩ := sqRound0_spec x hh
      exact ⟨m, k, hm, by rw [h]; ring⟩)
  generalize ht0 : sqRound0 x = t0 at *
  obtain ⟨m1, hm1, e1, b1⟩ := sq_exact (T := (sqRound1 x t0).val) (t := (t0).val)
    (S := x.d1.toNat * 2 ^ 64 + 2 * x.d2.toNat * 2 ^ 128 + 2 * x.d3.toNat * 2 ^ 192 + 2 * x.d4.toNat * 2 ^ 256 + 2 * x.d5.toNat * 2 ^ 320)
    (v := x.d1.toNat) hx (u64_lt _) (by omega) b0 (by
      obtain ⟨m, k, hm, h⟩ := sqRound1_spec x t0 hh
      exact ⟨m, k, hm, by rw [h]; ring⟩)
  generalize ht1 : sqRound1 x t0 = t1 at *
  obtain ⟨m2, hm2, e2, b2⟩ := sq_exact (T := (sqRound2 x t1).val) (t := (t1).val)
    (S := x.d2.toNat * 2 ^ 128 + 2 * x.d3.toNat * 2 ^ 192 + 2 * x.d4.toNat * 2 ^ 256 + 2 * x.d5.toNat * 2 ^ 320)
    (v := x.d2.toNat) hx (u64_lt _) (by omega) b1 (by
      obtain ⟨m, k, hm, h⟩ := sqRound2_spec x t1 hh
      exact ⟨m, k, hm, by rw [h]; ring⟩)
  generalize ht2 : sqRound2 x t1 = t2 at *
  obtain ⟨m3, hm3, e3, b3⟩ := sq_exact (T := (sqRound3 x t2).val) (t := (t2).val)
    (S := x.d3.toNat * 2 ^ 192 + 2 * x.d4.toNat * 2 ^ 256 + 2 * x.d5.toNat * 2 ^ 320)
    (v := x.d3.toNat) hx (u64_lt _) (by omega) b2 (by
      obtain ⟨m, k, hm, h⟩ := sqRound3_spec x t2 hh
      exact ⟨m, k, hm, by rw [h]; ring⟩)
  generalize ht3 : sqRound3 x t2 = t3 at *
  obtain ⟨m4, hm4, e4, b4⟩ := sq_exact (T := (sqRound4 x t3).val) (t := (t3).val)
    (S := x.d4.toNat * 2 ^ 256 + 2 * x.d5.toNat * 2 ^ 320)
    (v := x.d4.toNat) hx (u64_lt _) (by omega) b3 (by
      obtain ⟨m, k, hm, h⟩ := sqRound4_spec x t3 hh
      exact ⟨m, k, hm, by rw [h]; ring⟩)
  generalize ht4 : sqRound4 x t3 = t4 at *
  obtain ⟨m5, hm5, e5, b5⟩ := sq_exact (T := (sqRound5 x t4).val) (t := (t4).val)
    (S := x.d5.toNat * 2 ^ 320)
    (v := x.d5.toNat) hx (u64_lt _) (by omega) b4 (by
      obtain ⟨m, k, hm, h⟩ := sqRound5_spec x t4 hh
      exact ⟨m, k, hm, by rw [h]; ring⟩)
  generalize ht5 : sqRound5 x t4 = t5 at *
  simp only [square, ht0, ht1, ht2, ht3, ht4, ht5]
  have key : 2 ^ 384 * t5.val = x.val * x.val +
      (m0 + 2 ^ 64 * m1 + 2 ^ 128 * m2 + 2 ^ 192 * m3 + 2 ^ 256 * m4 + 2 ^ 320 * m5) * Bls.p := by
    rw [hval]
    linear_combination e0 + 2 ^ 64 * e1 + 2 ^ 128 * e2 + 2 ^ 192 * e3 + 2 ^ 256 * e4 + 2 ^ 320 * e5
  have hM : m0 + 2 ^ 64 * m1 + 2 ^ 128 * m2 + 2 ^ 192 * m3 + 2 ^ 256 * m4 + 2 ^ 320 * m5
      < 2 ^ 384 := by omega
  have hxy : x.val * x.val < 2 ^ 384 * Bls.p :=
    Nat.mul_lt_mul'' (Fp.val_lt x) hx
  have hlt := mont_final key hM hxy
  have hmod := mont_mod key
  rw [condSub_val]
  split
  · exact ⟨by assumption, hmod⟩
  · refine ⟨by omega, ?_⟩
    rw [← hmod]
    obtain ⟨s, hs⟩ : ∃ s, t5.val = s + Bls.p := ⟨t5.val - Bls.p, by omega⟩
    rw [hs, Nat.add_sub_cancel, Nat.mul_add, Nat.add_mul_mod_self_right]

end Portable
end Bls
