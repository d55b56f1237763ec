import Verif.Model.AsmCode
import Verif.Proof.Limbs
import Mathlib.Tactic.LinearCombination

/-! Forward symbolic execution rules for the x86 machine. -/

namespace Bls.X86

/-- The code runs to completion without undefined behaviour and the final state satisfies `Q`. -/
def wp (is : List Instr) (Q : Cpu → Prop) (s : Cpu) : Prop := ∃ s', run is s = some s' ∧ Q s'

variable {is : List Instr} {Q : Cpu → Prop} {s : Cpu}

theorem wp_nil (h : Q s) : wp [] Q s := ⟨s, rfl, h⟩

theorem wp_cons {i : Instr} {s1 : Cpu} (h : step i s = some s1) (H : wp is Q s1) :
    wp (i :: is) Q s := by
  obtain ⟨s', h1, h2⟩ := H
  exact ⟨s', by simp [run, h, h1], h2⟩

theorem addWord_spec (a b : UInt64) (c : Bool) :
    (addWord a b c).1.toNat + 2 ^ 64 * (addWord a b c).2.toNat = a.toNat + b.toNat + c.toNat := by
  have := u64_lt a; have := u64_lt b; have := Bool.toNat_le c
  simp only [addWord, UInt64.toNat_ofNat']
  by_cases h : 2 ^ 64 ≤ a.toNat + b.toNat + c.toNat
  · simp only [h, decide_true, Bool.toNat_true]; omega
  · simp only [h, decide_false, Bool.toNat_false]; omega

theorem subWord_spec (a b : UInt64) (c : Bool) :
    (subWord a b c).1.toNat + b.toNat + c.toNat = a.toNat + 2 ^ 64 * (subWord a b c).2.toNat := by
  have := u64_lt a; have := u64_lt b; have := Bool.toNat_le c
  simp only [subWord, UInt64.toNat_ofNat']
  by_cases h : a.toNat < b.toNat + c.toNat
  · simp only [h, decide_true, Bool.toNat_true]; omega
  · simp only [h, decide_false, Bool.toNat_false]; omega

theorem wp_push {r : Reg} (H : wp is Q { s with stk := s.get r :: s.stk }) :
    wp (.push r :: is) Q s := wp_cons rfl H

theorem wp_pop {r : Reg} {v : UInt64} {rest : List UInt64} (h : s.stk = v :: rest)
    (H : wp is Q ({ s with stk := rest }.set r v)) : wp (.pop r :: is) Q s :=
  wp_cons (by simp only [step, h]) H

theorem wp_mov {src : Opd} {dst : Reg} {a : UInt64} (h : s.read src = some a)
    (H : wp is Q (s.set dst a)) : wp (.mov src dst :: is) Q s :=
  wp_cons (by simp [step, h]) H

theorem wp_movRsp {dst : Reg} {a : UInt64} (h : 0 - 8 * UInt64.ofNat s.stk.length = a)
    (H : wp is Q (s.set dst a)) : wp (.movRsp dst :: is) Q s :=
  wp_cons (by simp only [step, h]) H

theorem wp_store {src : Reg} {d : UInt64} {b : Reg}
    (H : wp is Q { s with mem := memSet s.mem (s.get b + d) (s.get src) }) :
    wp (.store src d b :: is) Q s := wp_cons rfl H

theorem wp_add {src : Opd} {dst : Reg} {a : UInt64} (h : s.read src = some a)
    (H : ∀ (v : UInt64) (c o : Bool),
      v.toNat + 2 ^ 64 * c.toNat = (s.get dst).toNat + a.toNat →
      wp is Q { s.set dst v with cf := c, of := o }) : wp (.add src dst :: is) Q s :=
  wp_cons (by simp only [step, h, Option.map_some]; try rfl) (H _ _ _ (by
    have := addWord_spec (s.get dst) a false; simpa using this))

theorem wp_adc {src : Opd} {dst : Reg} {a : UInt64} (h : s.read src = some a)
    (H : ∀ (v : UInt64) (c o : Bool),
      v.toNat + 2 ^ 64 * c.toNat = (s.get dst).toNat + a.toNat + s.cf.toNat →
      wp is Q { s.set dst v with cf := c, of := o }) : wp (.adc src dst :: is) Q s :=
  wp_cons (by simp only [step, h, Option.map_some]; try rfl) (H _ _ _ (addWord_spec _ _ _))

theorem wp_sub {src : Opd} {dst : Reg} {a : UInt64} (h : s.read src = some a)
    (H : ∀ (v : UInt64) (c o : Bool),
      v.toNat + a.toNat = (s.get dst).toNat + 2 ^ 64 * c.toNat →
      wp is Q { s.set dst v with cf := c, of := o }) : wp (.sub src dst :: is) Q s :=
  wp_cons (by simp only [step, h, Option.map_some]; try rfl) (H _ _ _ (by
    have := subWord_spec (s.get dst) a false; simpa using this))

theorem wp_sbb {src : Opd} {dst : Reg} {a : UInt64} (h : s.read src = some a)
    (H : ∀ (v : UInt64) (c o : Bool),
      v.toNat + a.toNat + s.cf.toNat = (s.get dst).toNat + 2 ^ 64 * c.toNat →
      wp is Q { s.set dst v with cf := c, of := o }) : wp (.sbb src dst :: is) Q s :=
  wp_cons (by simp only [step, h, Option.map_some]; try rfl) (H _ _ _ (subWord_spec _ _ _))

theorem wp_adcx {src dst : Reg}
    (H : ∀ (v : UInt64) (c : Bool),
      v.toNat + 2 ^ 64 * c.toNat = (s.get dst).toNat + (s.get src).toNat + s.cf.toNat →
      wp is Q { s.set dst v with cf := c }) : wp (.adcx src dst :: is) Q s :=
  wp_cons rfl (H _ _ (addWord_spec _ _ _))

theorem wp_adox {src dst : Reg}
    (H : ∀ (v : UInt64) (c : Bool),
      v.toNat + 2 ^ 64 * c.toNat = (s.get dst).toNat + (s.get src).toNat + s.of.toNat →
      wp is Q { s.set dst v with of := c }) : wp (.adox src dst :: is) Q s :=
  wp_cons rfl (H _ _ (addWord_spec _ _ _))

theorem wp_mul {src : Opd} {a : UInt64} (h : s.read src = some a)
    (H : ∀ (lo hi : UInt64) (c o : Bool),
      lo.toNat + 2 ^ 64 * hi.toNat = s.rax.toNat * a.toNat →
      wp is Q { s with rax := lo, rdx := hi, cf := c, of := o }) : wp (.mul src :: is) Q s :=
  wp_cons (by simp only [step, h, Option.map_some]; try rfl) (H _ _ _ _ (mul64_spec _ _))

theorem wp_mulx {src : Opd} {rl rh : Reg} {a : UInt64} (h : s.read src = some a)
    (H : ∀ (lo hi : UInt64),
      lo.toNat + 2 ^ 64 * hi.toNat = s.rdx.toNat * a.toNat →
      wp is Q ((s.set rl lo).set rh hi)) : wp (.mulx src rl rh :: is) Q s :=
  wp_cons (by simp only [step, h, Option.map_some]; try rfl) (H _ _ (mul64_spec _ _))

theorem wp_xor_self {r : Reg}
    (H : wp is Q { s.set r 0 with cf := false, of := false }) : wp (.xor r r :: is) Q s :=
  wp_cons (by simp [step]) H

theorem wp_cmovae {src dst : Reg}
    (H : wp is Q (s.set dst (bif s.cf then s.get dst else s.get src))) :
    wp (.cmovae src dst :: is) Q s := wp_cons rfl H

theorem wp_ret (h : s.stk = []) (H : wp is Q s) : wp (.ret :: is) Q s :=
  wp_cons (by simp [step, h]) H

/-! Arithmetic side facts -/

theorem adc_small {v c a b d A B : Nat} (h : v + 2 ^ 64 * c = a + b + d) (ha : a ≤ A) (hb : b ≤ B)
    (hd : d ≤ 1) (hs : A + B + 1 < 2 ^ 64) : v ≤ A + B + 1 ∧ c = 0 := by omega

theorem add_small {v c a b A B : Nat} (h : v + 2 ^ 64 * c = a + b) (ha : a ≤ A) (hb : b ≤ B)
    (hs : A + B < 2 ^ 64) : v ≤ A + B ∧ c = 0 := by omega

theorem mul_hi {lo hi a b : Nat} (h : lo + 2 ^ 64 * hi = a * b) (ha : a < 2 ^ 64)
    (hb : b < 2 ^ 64) : hi ≤ 2 ^ 64 - 2 := by
  have h2 : a * b ≤ (2 ^ 64 - 1) * (2 ^ 64 - 1) := Nat.mul_le_mul (by omega) (by omega)
  generalize a * b = ab at *
  omega

/-- High word of a product with a factor at most `2^61`. -/
theorem mul_hi61 {lo hi a b : Nat} (h : lo + 2 ^ 64 * hi = a * b) (ha : a < 2 ^ 64)
    (hb : b ≤ 2 ^ 61) : hi ≤ 2 ^ 61 := by
  have h2 : a * b ≤ (2 ^ 64 - 1) * 2 ^ 61 := Nat.mul_le_mul (by omega) hb
  generalize a * b = ab at *
  omega

/-- One multiply-accumulate step cannot overflow two words. -/
theorem mac_top {lo hi a b w1 c1 t d1 w2 c2 r v c4 : Nat} (hp : lo + 2 ^ 64 * hi = a * b)
    (h1 : w1 + 2 ^ 64 * c1 = t + lo) (h2 : d1 = hi + c1) (h3 : w2 + 2 ^ 64 * c2 = w1 + r)
    (h4 : v + 2 ^ 64 * c4 = d1 + c2) (ha : a < 2 ^ 64) (hb : b < 2 ^ 64) (ht : t < 2 ^ 64)
    (hr : r < 2 ^ 64) : c4 = 0 := by
  have h2 : a * b ≤ (2 ^ 64 - 1) * (2 ^ 64 - 1) := Nat.mul_le_mul (by omega) (by omega)
  generalize a * b = ab at *
  omega

/-- The low word is cleared by the Montgomery multiple. -/
theorem mont_low {t m N P k lo hi v c : Nat} (hm : m + 2 ^ 64 * k = t * N)
    (hl : lo + 2 ^ 64 * hi = P * m) (hv : v + 2 ^ 64 * c = t + lo) (hv' : v < 2 ^ 64)
    (hN : (N * P + 1) % 2 ^ 64 = 0) : v = 0 := by
  have h1 : (v + 2 ^ 64 * (c + hi + P * k)) = t * (N * P + 1) := by
    have : v + 2 ^ 64 * (c + hi + P * k) + (P * m + t * N * P) =
        t * (N * P + 1) + (P * m + t * N * P) := by
      linear_combination hv + hl + P * hm
    exact Nat.add_right_cancel this
  have h2 : (v + 2 ^ 64 * (c + hi + P * k)) % 2 ^ 64 = 0 := by
    rw [h1, Nat.mul_mod, hN, Nat.mul_zero, Nat.zero_mod]
  omega

/-- A row of the product fits in seven words. -/
theorem row_top {out c A x Y : Nat} (h : out + 2 ^ 448 * c = A + x * Y) (hA : A < 2 ^ 384)
    (hx : x < 2 ^ 64) (hY : Y < 2 ^ 384) : c = 0 := by
  have h2 : x * Y ≤ (2 ^ 64 - 1) * (2 ^ 384 - 1) := Nat.mul_le_mul (by omega) (by omega)
  generalize x * Y = xy at *
  rcases Nat.eq_zero_or_pos c with h0 | h0
  · exact h0
  · exfalso
    have : 2 ^ 448 * 1 ≤ 2 ^ 448 * c := Nat.mul_le_mul_left _ h0
    norm_num at *
    omega

theorem u6_lt (a b c d e f : UInt64) :
    a.toNat + 2 ^ 64 * b.toNat + 2 ^ 128 * c.toNat + 2 ^ 192 * d.toNat + 2 ^ 256 * e.toNat +
      2 ^ 320 * f.toNat < 2 ^ 384 := by
  have := u64_lt a; have := u64_lt b; have := u64_lt c; have := u64_lt d; have := u64_lt e
  have := u64_lt f
  norm_num at *
  omega

/-! Reading the constants from the frame -/

/-- Offsets from `%rbp` (which is `-56` in the frame segment) as slots from the bottom. -/
theorem stkRead_frame (top : List UInt64) (P5 P4 P3 P2 P1 P0 N s0 s1 s2 s3 s4 s5 : UInt64) :
    let st := top ++ [P5, P4, P3, P2, P1, P0, N, s0, s1, s2, s3, s4, s5]
    stkRead st (0xffffffffffffffc8 + 0) = some N ∧
    stkRead st (0xffffffffffffffc8 + 0xfffffffffffffff8) = some P0 ∧
    stkRead st (0xffffffffffffffc8 + 0xfffffffffffffff0) = some P1 ∧
    stkRead st (0xffffffffffffffc8 + 0xffffffffffffffe8) = some P2 ∧
    stkRead st (0xffffffffffffffc8 + 0xffffffffffffffe0) = some P3 ∧
    stkRead st (0xffffffffffffffc8 + 0xffffffffffffffd8) = some P4 ∧
    stkRead st (0xffffffffffffffc8 + 0xffffffffffffffd0) = some P5 := by
  simp only [stkRead, List.reverse_append]
  refine ⟨?_, ?_, ?_, ?_, ?_, ?_, ?_⟩
  · have : ((0 - (0xffffffffffffffc8 + 0 : UInt64)) / 8).toNat - 1 = 6 := by decide +kernel
    rw [this]; rfl
  · have : ((0 - (0xffffffffffffffc8 + 0xfffffffffffffff8 : UInt64)) / 8).toNat - 1 = 7 := by
      decide +kernel
    rw [this]; rfl
  · have : ((0 - (0xffffffffffffffc8 + 0xfffffffffffffff0 : UInt64)) / 8).toNat - 1 = 8 := by
      decide +kernel
    rw [this]; rfl
  · have : ((0 - (0xffffffffffffffc8 + 0xffffffffffffffe8 : UInt64)) / 8).toNat - 1 = 9 := by
      decide +kernel
    rw [this]; rfl
  · have : ((0 - (0xffffffffffffffc8 + 0xffffffffffffffe0 : UInt64)) / 8).toNat - 1 = 10 := by
      decide +kernel
    rw [this]; rfl
  · have : ((0 - (0xffffffffffffffc8 + 0xffffffffffffffd8 : UInt64)) / 8).toNat - 1 = 11 := by
      decide +kernel
    rw [this]; rfl
  · have : ((0 - (0xffffffffffffffc8 + 0xffffffffffffffd0 : UInt64)) / 8).toNat - 1 = 12 := by
      decide +kernel
    rw [this]; rfl

end Bls.X86
