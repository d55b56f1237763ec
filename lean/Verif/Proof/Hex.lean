import Verif.Model.Hex
import Verif.Spec.Hex
import Mathlib.Data.List.Basic

namespace Bls

/-- The code's nibble formula on all hexadecimal digits. -/
theorem hexNibble_spec : ∀ n : Nat, n < 256 → ∀ x, hexDigit (UInt8.ofNat n) = some x →
    hexNibble (UInt8.ofNat n) = (x : Int) ∧ x < 16 := by
  have h : ∀ n : Fin 256, (hexDigit (UInt8.ofNat n.val)).all
      (fun (x : Nat) => decide (hexNibble (UInt8.ofNat n.val) = (x : Int)) && decide (x < 16)) = true := by decide +kernel
  intro n hn x hx
  have := h ⟨n, hn⟩
  rw [hx] at this
  rw [Option.all_some, Bool.and_eq_true, decide_eq_true_iff, decide_eq_true_iff] at this
  exact ⟨this.1, by have := this.2; omega⟩

theorem hexByte_spec {a b : UInt8} {x y : Nat} (ha : hexDigit a = some x) (hb : hexDigit b = some y) :
    hexByte a b = UInt8.ofNat (16 * x + y) := by
  have ea : UInt8.ofNat a.toNat = a := UInt8.ofNat_toNat
  have eb : UInt8.ofNat b.toNat = b := UInt8.ofNat_toNat
  have h1 := hexNibble_spec a.toNat a.toNat_lt x (by rw [ea]; exact ha)
  have h2 := hexNibble_spec b.toNat b.toNat_lt y (by rw [eb]; exact hb)
  rw [ea] at h1
  rw [eb] at h2
  rw [hexByte, h1.1, h2.1]
  have : (x : Int) * 16 + y = ((16 * x + y : Nat) : Int) := by push_cast; omega
  rw [this]
  have h3 : 16 * x + y < 256 := by omega
  rw [UInt8.ofInt, Int.emod_eq_of_lt (by omega) (by omega), Int.toNat_natCast]

theorem HexOf.length_even {s bs : List UInt8} (h : HexOf s bs) : s.length = 2 * bs.length := by
  induction h with
  | nil => rfl
  | cons _ _ _ ih => simp only [List.length_cons, ih]; omega

theorem hexLoop_spec {s bs : List UInt8} (h : HexOf s bs) : hexLoop s = bs := by
  induction h with
  | nil => rfl
  | cons ha hb _ ih => rw [hexLoop, hexByte_spec ha hb, ih]

theorem hexLoopN_spec {s bs : List UInt8} (h : HexOf s bs) (t : List UInt8) :
    hexLoopN bs.length (s ++ t) = some bs := by
  induction h with
  | nil => rfl
  | cons ha hb _ ih =>
    rw [List.cons_append, List.cons_append, List.length_cons, hexLoopN, ih, hexByte_spec ha hb]

theorem hexDigit_x : hexDigit 120 = none := by decide +kernel

theorem hexToBytes_spec {s bs : List UInt8} (h : HexOf s bs) (hne : s ≠ []) : hexToBytes s = some bs := by
  have hl := h.length_even
  cases h with
  | nil => exact absurd rfl hne
  | @cons a b x y s bs ha hb hs =>
    have hb' : b ≠ 120 := by rintro rfl; rw [hexDigit_x] at hb; cases hb
    rw [hexToBytes]
    simp only [hb', and_false, if_false]
    rw [if_neg (by rw [hl]; omega), hexLoop_spec (.cons ha hb hs)]

theorem hexToBytes_prefix {s bs : List UInt8} (h : HexOf s bs) : hexToBytes (48 :: 120 :: s) = some bs := by
  have hl := h.length_even
  rw [hexToBytes]
  simp only [and_self, if_true]
  rw [if_neg (by simp only [List.length_cons, hl]; omega), hexLoop_spec h]

theorem hexToBytesN_spec {s bs : List UInt8} (h : HexOf s bs) : hexToBytesN bs.length s = some bs := by
  cases h with
  | nil => rfl
  | @cons a b x y s bs ha hb hs =>
    have hb' : b ≠ 120 := by rintro rfl; rw [hexDigit_x] at hb; cases hb
    rw [hexToBytesN]
    simp only [List.cons_append, hb', and_false, if_false]
    exact hexLoopN_spec (.cons ha hb hs) [0]

theorem hexToBytesN_prefix {s bs : List UInt8} (h : HexOf s bs) :
    hexToBytesN bs.length (48 :: 120 :: s) = some bs := by
  rw [hexToBytesN]
  simp only [List.cons_append, and_self, if_true]
  exact hexLoopN_spec h [0]

theorem bytesToHex_spec (bs : List UInt8) : ∃ s, bytesToHex bs = 48 :: 120 :: s ∧ HexOf s bs := by
  refine ⟨_, rfl, ?_⟩
  have key : ∀ n : Fin 256, hexDigit (hexmap.getD ((UInt8.ofNat n.val &&& 0xF0) >>> 4).toNat 0) = some (n.val / 16) ∧
      hexDigit (hexmap.getD (UInt8.ofNat n.val &&& 0x0F).toNat 0) = some (n.val % 16) := by decide +kernel
  induction bs with
  | nil => exact .nil
  | cons b bs ih =>
    have eb : UInt8.ofNat b.toNat = b := UInt8.ofNat_toNat
    have h := key ⟨b.toNat, b.toNat_lt⟩
    simp only [eb] at h
    have := HexOf.cons h.1 h.2 ih
    rw [show 16 * (b.toNat / 16) + b.toNat % 16 = b.toNat by omega, eb] at this
    exact this

theorem bytesToHex_lower (bs : List UInt8) : ∀ c ∈ (bytesToHex bs).drop 2,
    (48 ≤ c.toNat ∧ c.toNat ≤ 57) ∨ (97 ≤ c.toNat ∧ c.toNat ≤ 102) := by
  have key : ∀ n < 256, ∀ c ∈ [hexmap.getD ((UInt8.ofNat n &&& 0xF0) >>> 4).toNat 0,
      hexmap.getD (UInt8.ofNat n &&& 0x0F).toNat 0],
      (48 ≤ c.toNat ∧ c.toNat ≤ 57) ∨ (97 ≤ c.toNat ∧ c.toNat ≤ 102) := by decide +kernel
  intro c hc
  obtain ⟨b, _, h⟩ := List.mem_flatMap.1 (show c ∈ bs.flatMap _ from hc)
  have := key b.toNat b.toNat_lt c
  rw [UInt8.ofNat_toNat] at this
  exact this h

end Bls
