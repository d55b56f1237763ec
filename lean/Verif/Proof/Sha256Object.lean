import Verif.Proof.Sha256
import Verif.Model.Sha256Object
import Verif.Spec.Sha256Object

/-! An object that is used after `digest`. -/

namespace Bls.Sha256
open Fips

/-- State of the object when the stream `m` has gone through and `c` bytes have been counted. -/
structure Inv' (x : Sha256) (m : List UInt8) (c : ℕ) : Prop where
  length : x.data.length = 64
  blocklen : x.blocklen = m.length % 64
  bitlen : x.bitlen + UInt64.ofNat (x.blocklen * 8) = UInt64.ofNat (8 * c)
  state : x.state = hashAfter K H0 m (m.length / 64)
  data : x.data.take x.blocklen = m.drop (64 * (m.length / 64))

theorem init_inv' (junk : List UInt8) (h : junk.length = 64) : Inv' (init junk) [] 0 := ⟨h, rfl, rfl, rfl, rfl⟩

theorem step_inv' {x : Sha256} {m : List UInt8} {c : ℕ} (h : Inv' x m c) (b : UInt8) :
    Inv' (x.step b) (m ++ [b]) (c + 1) := by
  obtain ⟨h1, h2, h3, h4, h5⟩ := h
  have hbl : x.blocklen < 64 := by omega
  have htk : (x.data.set x.blocklen b).take (x.blocklen + 1) = m.drop (64 * (m.length / 64)) ++ [b] := by
    rw [set_take _ _ _ (by omega), h5]
  have hmb : (m ++ [b]).length = m.length + 1 := by simp
  have hdrop : (m ++ [b]).drop (64 * (m.length / 64)) = m.drop (64 * (m.length / 64)) ++ [b] :=
    List.drop_append_of_le_length (by omega)
  have hcount : UInt64.ofNat (8 * (c + 1)) = x.bitlen + UInt64.ofNat ((x.blocklen + 1) * 8) := by
    rw [mul_add, UInt64.ofNat_add, ← h3, add_mul, UInt64.ofNat_add, UInt64.add_assoc]
  rw [step]
  simp only
  by_cases hfull : x.blocklen + 1 = 64
  · rw [if_pos hfull, transform_spec _ (by simpa using h1)]
    have hdiv : (m.length + 1) / 64 = m.length / 64 + 1 := by omega
    have hblk : x.data.set x.blocklen b = (m ++ [b]).drop (64 * (m.length / 64)) := by
      rw [hdrop, ← htk, hfull, List.take_of_length_le (by simp [h1])]
    refine ⟨by simpa using h1, ?_, ?_, ?_, ?_⟩
    · simp only; omega
    · simp only
      rw [hcount, hfull, zero_mul]
      exact UInt64.add_zero _
    · simp only
      rw [hmb, hdiv, hashAfter, h4, hashAfter_append m [b] _ (by omega)]
      exact compress_congr (fun j _ => by rw [word_drop (m ++ [b]), ← hblk]) _
    · simp only
      rw [List.take_zero, hmb, hdiv, List.drop_of_length_le (by omega)]
  · rw [if_neg hfull]
    have hdiv : (m.length + 1) / 64 = m.length / 64 := by omega
    refine ⟨by simpa using h1, ?_, hcount.symm, ?_, ?_⟩
    · simp only; omega
    · simp only; rw [h4, hmb, hdiv, hashAfter_append m [b] _ (by omega)]
    · simp only; rw [htk, hmb, hdiv, hdrop]

theorem update_inv' : ∀ (bs : List UInt8) {x : Sha256} {m : List UInt8} {c : ℕ}, Inv' x m c →
    Inv' (x.update bs) (m ++ bs) (c + bs.length)
  | [], x, m, c, h => by rw [List.append_nil]; exact h
  | b :: bs, x, m, c, h => by
    have := update_inv' bs (step_inv' h b)
    rw [List.append_assoc, add_assoc, add_comm 1] at this
    exact this

theorem pad_inv {x : Sha256} {m : List UInt8} {c : ℕ} (h : Inv' x m c) :
    x.pad.state = hashAfter K H0 (padCount m c) ((padCount m c).length / 64) ∧
      Inv' x.pad (padCount m c ++ leftover m c) (c + m.length % 64) := by
  obtain ⟨h1, h2, hlen, h4, h5⟩ := h
  have hbe := be8 _ _ hlen
  have hdl : (m.drop (64 * (m.length / 64))).length = m.length % 64 := by rw [List.length_drop]; omega
  have hcount : UInt64.ofNat (8 * c) + UInt64.ofNat (x.blocklen * 8) = UInt64.ofNat (8 * (c + m.length % 64)) := by
    rw [h2, ← UInt64.ofNat_add]; congr 1; omega
  have hfin : ∀ (y : Sha256) (N : ℕ) (d : List UInt8), (padCount m c).length = 64 * (N + 1) → d.length = 64 →
      (padCount m c).drop (64 * N) = d → y.data = d → y.blocklen = x.blocklen → y.bitlen = UInt64.ofNat (8 * c) →
      y.state = hashAfter K H0 (padCount m c) (N + 1) →
      Inv' y (padCount m c ++ leftover m c) (c + m.length % 64) := by
    intro y N d e1 e2 e3 e4 e5 e6 e7
    have hleft : leftover m c = d.take (m.length % 64) := by
      rw [leftover, e1, show 64 * (N + 1) - 64 = 64 * N by omega, e3]
    have hlt : m.length % 64 < 64 := Nat.mod_lt _ (by norm_num)
    have hll : (leftover m c).length = m.length % 64 := by rw [hleft, List.length_take]; omega
    have hdiv : (padCount m c ++ leftover m c).length / 64 = N + 1 := by rw [List.length_append, e1, hll]; omega
    refine ⟨by rw [e4, e2], ?_, ?_, ?_, ?_⟩
    · rw [e5, h2, List.length_append, e1, hll]; omega
    · rw [e6, e5, hcount]
    · rw [e7, hdiv, hashAfter_append _ _ _ e1.ge]
    · rw [e4, e5, hdiv, h2, ← e1, List.drop_left' rfl, hleft]
  set n := m.length / 64 with hn
  by_cases hb : x.blocklen < 56
  · have hpl : (padCount m c).length = 64 * (n + 1) := by
      simp only [padCount, List.length_append, List.length_replicate, be_length, List.length_cons, List.length_nil]
      omega
    have hpd : (padCount m c).drop (64 * n) = x.data.take x.blocklen ++ [0x80] ++
        List.replicate (56 - (x.blocklen + 1)) 0 ++ be 8 (8 * c) := by
      rw [padCount, h5, List.append_assoc, List.append_assoc, List.drop_append_of_le_length (by omega),
        List.append_assoc, List.append_assoc, show (119 - m.length % 64) % 64 = 56 - (x.blocklen + 1) by omega]
    have hd : ∀ r : List UInt8, (x.data.take x.blocklen ++ [0x80] ++ List.replicate (56 - (x.blocklen + 1)) 0 ++
        r).take 56 = x.data.take x.blocklen ++ [0x80] ++ List.replicate (56 - (x.blocklen + 1)) 0 := by
      intro r
      exact List.take_left' (by simp [h1]; omega)
    have hst : compress K x.state (word ((padCount m c).drop (64 * n)) 0) = hashAfter K H0 (padCount m c) (n + 1) := by
      rw [hashAfter, h4, padCount, List.append_assoc, List.append_assoc, hashAfter_append m _ n (by omega)]
      exact compress_congr (fun j _ => (word_drop _ _ _).symm) _
    have key : x.pad = (⟨(padCount m c).drop (64 * n), x.blocklen, UInt64.ofNat (8 * c),
        hashAfter K H0 (padCount m c) (n + 1)⟩ : Sha256) := by
      rw [pad]
      simp only
      rw [if_pos hb, if_neg (by omega)]
      simp only
      rw [hbe, hd, ← hpd, transform_spec _ (by simp only [List.length_drop]; omega), hlen]
      simp only
      rw [hst]
    refine ⟨by rw [key, hpl, Nat.mul_div_cancel_left _ (by norm_num)],
      hfin _ n _ hpl (by rw [List.length_drop]; omega) rfl (by rw [key]) (by rw [key]) (by rw [key]) (by rw [key])⟩
  · have hpl : (padCount m c).length = 64 * (n + 2) := by
      simp only [padCount, List.length_append, List.length_replicate, be_length, List.length_cons, List.length_nil]
      omega
    set d1 := x.data.take x.blocklen ++ [0x80] ++ List.replicate (64 - (x.blocklen + 1)) 0 with hd1
    set d2 := List.replicate 56 (0 : UInt8) ++ be 8 (8 * c) with hd2
    have hl1 : d1.length = 64 := by simp [hd1, h1]; omega
    have hl2 : d2.length = 64 := by simp [hd2, be_length]
    have hpd : (padCount m c).drop (64 * n) = d1 ++ d2 := by
      rw [padCount, hd1, h5, List.append_assoc, List.append_assoc, List.drop_append_of_le_length (by omega),
        show (119 - m.length % 64) % 64 = (64 - (x.blocklen + 1)) + 56 by omega, ← List.replicate_append_replicate]
      simp only [hd2, List.append_assoc]
    have hpd2 : (padCount m c).drop (64 * (n + 1)) = d2 := by
      rw [mul_add, mul_one, ← List.drop_drop, hpd, List.drop_left' hl1]
    have hp0 : hashAfter K H0 (padCount m c) n = x.state := by
      rw [h4, padCount, List.append_assoc, List.append_assoc, hashAfter_append m _ n (by omega)]
    have hst : compress K (compress K x.state (word d1 0)) (word d2 0) = hashAfter K H0 (padCount m c) (n + 1 + 1) := by
      rw [hashAfter, hashAfter, hp0, compress_congr (M := word (padCount m c) n) (M' := word d1 0) (fun j hj => by
        rw [word_drop, hpd, word_append _ _ _ (by omega) hj])]
      exact compress_congr (fun j _ => by rw [word_drop (padCount m c), hpd2]) _
    have key : x.pad = (⟨d2, x.blocklen, UInt64.ofNat (8 * c), hashAfter K H0 (padCount m c) (n + 1 + 1)⟩ : Sha256) := by
      rw [pad]
      simp only
      rw [if_neg hb, if_pos (by omega), List.drop_of_length_le (by omega : x.data.length ≤ 64), List.append_nil, ← hd1]
      have ht1 := transform_spec { x with data := d1 } hl1
      simp only at ht1
      rw [ht1]
      simp only
      rw [hbe, List.take_left' (by simp), ← hd2, transform_spec _ hl2, hlen]
      simp only
      rw [hst]
    refine ⟨by rw [key, hpl, Nat.mul_div_cancel_left _ (by norm_num)],
      hfin _ (n + 1) d2 (by rw [hpl]) hl2 hpd2 (by rw [key]) (by rw [key]) (by rw [key]) (by rw [key])⟩

theorem digestObj_spec {x : Sha256} {s : Stream} (h : Inv' x s.bytes s.count) :
    s.Value (digestObj x).1 ∧ Inv' (digestObj x).2 s.digest.bytes s.digest.count := by
  obtain ⟨h1, h2⟩ := pad_inv h
  refine ⟨⟨K, H0, K_isK, H0_isH0, ?_⟩, h2⟩
  rw [digestObj, ← h1, revert, Fips.digest]
  simp only [revertWord_eq]

theorem calls_spec : ∀ (cs : List Call) {x : Sha256} {s : Stream}, Inv' x s.bytes s.count → s.Answers cs (calls x cs)
  | [], _, _, _ => rfl
  | .update bs :: cs, _, _, h => calls_spec cs (update_inv' bs h)
  | .digest :: cs, _, _, h => ⟨_, _, rfl, (digestObj_spec h).1, calls_spec cs (digestObj_spec h).2⟩

theorem after_inv : ∀ (cs : List Call) {x : Sha256} {s : Stream}, Inv' x s.bytes s.count →
    ∃ s' : Stream, Inv' (after x cs) s'.bytes s'.count
  | [], _, s, h => ⟨s, h⟩
  | .update bs :: cs, _, s, h => after_inv cs (s := s.update bs) (update_inv' bs h)
  | .digest :: cs, _, _, h => after_inv cs (digestObj_spec h).2

theorem value_unique {s : Stream} {h h' : List UInt8} (a : s.Value h) (b : s.Value h') : h = h' := by
  obtain ⟨K1, H1, hk, hh, rfl⟩ := a
  obtain ⟨K2, H2, hk', hh', rfl⟩ := b
  have e1 : K1 = K2 := forall₂_unique (by norm_num) hk hk'
  have e2 : H1 = H2 := by
    have := forall₂_unique (by norm_num) hh hh'
    cases H1; cases H2
    simp only [List.cons.injEq, and_true] at this
    simp only [Words8.mk.injEq]
    exact this
  rw [e1, e2]

theorem answers_unique : ∀ (cs : List Call) {s : Stream} {hs hs' : List (List UInt8)}, s.Answers cs hs → s.Answers cs hs' →
    hs = hs'
  | [], _, _, _, a, b => a.trans b.symm
  | .update _ :: cs, _, _, _, a, b => answers_unique cs a b
  | .digest :: cs, _, _, _, ⟨h, t, e, v, r⟩, ⟨h', t', e', v', r'⟩ => by
    rw [e, e', value_unique v v', answers_unique cs r r']

theorem leftover_short (m : List UInt8) (c : ℕ) (h : m.length % 64 < 56) : leftover m c = m.drop (64 * (m.length / 64)) := by
  have hl : (padCount m c).length = 64 * (m.length / 64) + 64 := by
    simp only [padCount, List.length_append, List.length_replicate, be_length, List.length_cons, List.length_nil]
    omega
  rw [leftover, hl, Nat.add_sub_cancel, padCount, List.append_assoc, List.append_assoc,
    List.drop_append_of_le_length (by omega), List.take_left' (by rw [List.length_drop]; omega)]

theorem leftover_long (m : List UInt8) (c : ℕ) (h : 56 ≤ m.length % 64) :
    leftover m c = (List.replicate 56 0 ++ be 8 (8 * c)).take (m.length % 64) := by
  have hl : (padCount m c).length = 64 * (m.length / 64) + 128 := by
    simp only [padCount, List.length_append, List.length_replicate, be_length, List.length_cons, List.length_nil]
    omega
  rw [leftover, hl, padCount, show (119 - m.length % 64) % 64 = (63 - m.length % 64) + 56 by omega,
    ← List.replicate_append_replicate, ← List.append_assoc, List.append_assoc _ (List.replicate 56 0),
    List.drop_left' (by simp only [List.length_append, List.length_replicate, List.length_cons, List.length_nil]; omega)]

end Bls.Sha256
