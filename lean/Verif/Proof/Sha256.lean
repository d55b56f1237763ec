import Verif.Model.Sha256
import Verif.Proof.Bytes
import Mathlib.Data.List.GetD
import Mathlib.Tactic.NormNum

/-! The streaming object computes FIPS 180-4 SHA-256. -/

namespace Bls.Sha256
open Fips

instance (e n : ℕ) (k : UInt32) : Decidable (IsFracRoot e n k) := by unfold IsFracRoot; infer_instance

theorem K_isK : IsK K := by unfold IsK; decide +kernel

/-- The initial state. -/
def H0 : Words8 := (init []).state

theorem H0_isH0 : IsH0 H0 := by unfold IsH0; decide +kernel

/-! ## Functions -/

theorem rotr_eq (x n : UInt32) : rotr x n = ROTR n x := rfl
theorem choose_eq (x y z : UInt32) : choose x y z = Ch x y z := rfl

theorem majority_eq (x y z : UInt32) : majority x y z = Maj x y z := by
  unfold majority Maj
  apply UInt32.eq_of_toBitVec_eq
  simp only [UInt32.toBitVec_or, UInt32.toBitVec_and, UInt32.toBitVec_xor]
  ext i
  simp only [BitVec.getElem_or, BitVec.getElem_and, BitVec.getElem_xor]
  cases x.toBitVec[i] <;> cases y.toBitVec[i] <;> cases z.toBitVec[i] <;> rfl

theorem sig0_eq (x : UInt32) : sig0 x = sigma0 x := rfl
theorem sig1_eq (x : UInt32) : sig1 x = sigma1 x := rfl

theorem round_eq (m : List UInt32) (s : Words8) (i : ℕ) :
    round m s i = Fips.round (K.getD i 0) (m.getD i 0) s := by
  unfold round Fips.round
  rw [majority_eq]
  simp only [choose_eq, rotr_eq, Words8.mk.injEq, and_true, true_and]
  unfold bigSigma0 bigSigma1
  generalize m.getD i 0 = a
  generalize K.getD i 0 = b
  constructor <;> ac_rfl

theorem word_eq (a b c d : UInt8) :
    (a.toUInt32 <<< 24) ||| (b.toUInt32 <<< 16) ||| (c.toUInt32 <<< 8) ||| d.toUInt32 =
      UInt32.ofNat (beVal [a, b, c, d]) := by
  have ha := a.toNat_lt; have hb := b.toNat_lt; have hc := c.toNat_lt; have hd := d.toNat_lt
  apply UInt32.toNat_inj.1
  rw [UInt32.toNat_ofNat', UInt32.toNat_or, UInt32.toNat_or, UInt32.toNat_or, UInt32.toNat_shiftLeft,
    UInt32.toNat_shiftLeft, UInt32.toNat_shiftLeft, UInt8.toNat_toUInt32, UInt8.toNat_toUInt32, UInt8.toNat_toUInt32,
    UInt8.toNat_toUInt32]
  simp only [beVal, List.foldl]
  rw [show (24 : UInt32).toNat % 32 = 24 from rfl, show (16 : UInt32).toNat % 32 = 16 from rfl,
    show (8 : UInt32).toNat % 32 = 8 from rfl]
  rw [Nat.mod_eq_of_lt (a := a.toNat <<< 24) (by rw [Nat.shiftLeft_eq]; omega),
    Nat.mod_eq_of_lt (a := b.toNat <<< 16) (by rw [Nat.shiftLeft_eq]; omega),
    Nat.mod_eq_of_lt (a := c.toNat <<< 8) (by rw [Nat.shiftLeft_eq]; omega),
    ← Nat.shiftLeft_add_eq_or_of_lt (b := b.toNat <<< 16) (by rw [Nat.shiftLeft_eq]; omega)]
  have e1 : a.toNat <<< 24 + b.toNat <<< 16 = (a.toNat * 2 ^ 8 + b.toNat) <<< 16 := by
    rw [Nat.shiftLeft_eq, Nat.shiftLeft_eq, Nat.shiftLeft_eq]; omega
  rw [e1, ← Nat.shiftLeft_add_eq_or_of_lt (b := c.toNat <<< 8) (by rw [Nat.shiftLeft_eq]; omega)]
  have e2 : (a.toNat * 2 ^ 8 + b.toNat) <<< 16 + c.toNat <<< 8 = ((a.toNat * 2 ^ 8 + b.toNat) * 2 ^ 8 + c.toNat) <<< 8 := by
    rw [Nat.shiftLeft_eq, Nat.shiftLeft_eq, Nat.shiftLeft_eq]; omega
  rw [e2, ← Nat.shiftLeft_add_eq_or_of_lt (b := d.toNat) (by omega), Nat.shiftLeft_eq, Nat.mod_eq_of_lt (by omega)]
  omega

theorem drop_take4 (d : List UInt8) (i : ℕ) (h : i + 4 ≤ d.length) :
    (d.drop i).take 4 = [d.getD i 0, d.getD (i + 1) 0, d.getD (i + 2) 0, d.getD (i + 3) 0] := by
  rw [List.drop_eq_getElem_cons (by omega : i < d.length), List.drop_eq_getElem_cons (by omega : i + 1 < d.length),
    List.drop_eq_getElem_cons (by omega : i + 1 + 1 < d.length),
    List.drop_eq_getElem_cons (by omega : i + 1 + 1 + 1 < d.length), List.getD_eq_getElem _ _ (by omega : i < d.length),
    List.getD_eq_getElem _ _ (by omega : i + 1 < d.length), List.getD_eq_getElem _ _ (by omega : i + 2 < d.length),
    List.getD_eq_getElem _ _ (by omega : i + 3 < d.length)]
  rfl

theorem load_length (d : List UInt8) : (load d).length = 16 := by rw [load, List.length_map, List.length_range]

theorem load_get (d : List UInt8) (hd : d.length = 64) {j : ℕ} (hj : j < 16) : (load d).getD j 0 = word d 0 j := by
  rw [List.getD_eq_getElem _ _ (by rw [load_length]; exact hj)]
  unfold load
  rw [List.getElem_map, List.getElem_range, word_eq, word, mul_zero, zero_add, drop_take4 d _ (by omega)]

theorem extend_spec (d : List UInt8) (hd : d.length = 64) : ∀ n, (extend n (load d)).length = 16 + n ∧
    ∀ t < 16 + n, (extend n (load d)).getD t 0 = W (word d 0) t
  | 0 => ⟨load_length d, fun t ht => by rw [W, if_pos ht]; exact load_get d hd ht⟩
  | n + 1 => by
    obtain ⟨h1, h2⟩ := extend_spec d hd n
    rw [extend]
    refine ⟨by rw [List.length_append, h1]; rfl, fun t ht => ?_⟩
    by_cases hlt : t < 16 + n
    · rw [List.getD_append _ _ _ _ (by omega), h2 t hlt]
    · have : t = 16 + n := by omega
      subst this
      rw [List.getD_append_right _ _ _ _ (by omega), h1, Nat.sub_self, List.getD_cons_zero, h2 _ (by omega),
        h2 _ (by omega), h2 _ (by omega), h2 _ (by omega), sig1_eq, sig0_eq]
      conv_rhs => rw [W, if_neg (by omega)]

theorem W_congr {M M' : ℕ → UInt32} (h : ∀ j < 16, M j = M' j) (t : ℕ) : W M t = W M' t := by
  induction t using Nat.strong_induction_on with
  | _ t ih =>
    by_cases ht : t < 16
    · rw [W.eq_def M, W.eq_def M', if_pos ht, if_pos ht, h t ht]
    · rw [W.eq_def M t, W.eq_def M' t, if_neg ht, if_neg ht, ih _ (by omega), ih _ (by omega), ih _ (by omega), ih _ (by omega)]

theorem rounds_congr {M M' : ℕ → UInt32} (h : ∀ j < 16, M j = M' j) (s : Words8) :
    ∀ n, rounds K M n s = rounds K M' n s
  | 0 => rfl
  | n + 1 => by rw [rounds, rounds, rounds_congr h s n, W_congr h]

theorem compress_congr {M M' : ℕ → UInt32} (h : ∀ j < 16, M j = M' j) (s : Words8) :
    compress K s M = compress K s M' := by rw [compress, compress, rounds_congr h]

theorem foldl_round (m : List UInt32) (M : ℕ → UInt32) (s : Words8) : ∀ n, (∀ t < n, m.getD t 0 = W M t) →
    (List.range n).foldl (round m) s = rounds K M n s
  | 0, _ => rfl
  | n + 1, h => by
    rw [List.range_succ, List.foldl_append, foldl_round m M s n (fun t ht => h t (by omega)), rounds]
    simp only [List.foldl_cons, List.foldl_nil]
    rw [round_eq, h n (by omega)]

theorem transform_spec (x : Sha256) (hd : x.data.length = 64) :
    x.transform = { x with state := compress K x.state (word x.data 0) } := by
  obtain ⟨h1, h2⟩ := extend_spec x.data hd 48
  rw [transform, compress, foldl_round _ (word x.data 0) x.state 64 (fun t ht => h2 t (by omega))]
  simp only [UInt32.add_comm]

/-! ## Blocks -/

theorem word_drop (m : List UInt8) (n j : ℕ) : word m n j = word (m.drop (64 * n)) 0 j := by
  rw [word, word, List.drop_drop, mul_zero, zero_add]

theorem word_append (d e : List UInt8) {j : ℕ} (n : ℕ) (hd : 64 * n + 64 ≤ d.length) (hj : j < 16) :
    word (d ++ e) n j = word d n j := by
  rw [word, word, List.drop_append_of_le_length (by omega), List.take_append_of_le_length (by rw [List.length_drop]; omega)]

theorem hashAfter_append (m r : List UInt8) : ∀ n, 64 * n ≤ m.length → hashAfter K H0 (m ++ r) n = hashAfter K H0 m n
  | 0, _ => rfl
  | n + 1, h => by
    rw [hashAfter, hashAfter, hashAfter_append m r n (by omega)]
    exact compress_congr (fun j hj => word_append m r n (by omega) hj) _

/-- State of the object after the bytes `m`. -/
structure Inv (x : Sha256) (m : List UInt8) : Prop where
  length : x.data.length = 64
  blocklen : x.blocklen = m.length % 64
  bitlen : x.bitlen = UInt64.ofNat (512 * (m.length / 64))
  state : x.state = hashAfter K H0 m (m.length / 64)
  data : x.data.take x.blocklen = m.drop (64 * (m.length / 64))

theorem init_inv (junk : List UInt8) (h : junk.length = 64) : Inv (init junk) [] :=
  ⟨h, rfl, rfl, rfl, rfl⟩

theorem set_take (l : List UInt8) (n : ℕ) (b : UInt8) (h : n < l.length) : (l.set n b).take (n + 1) = l.take n ++ [b] := by
  rw [List.take_set, List.take_succ_eq_append_getElem h, List.set_append_right _ _ (by simp), List.length_take,
    min_eq_left (by omega), Nat.sub_self, List.set_cons_zero]

theorem step_inv {x : Sha256} {m : List UInt8} (h : Inv x m) (b : UInt8) : Inv (x.step b) (m ++ [b]) := by
  obtain ⟨h1, h2, h3, h4, h5⟩ := h
  have hbl : x.blocklen < 64 := by omega
  have htk : (x.data.set x.blocklen b).take (x.blocklen + 1) = m.drop (64 * (m.length / 64)) ++ [b] := by
    rw [set_take _ _ _ (by omega), h5]
  have hmb : (m ++ [b]).length = m.length + 1 := by simp
  have hdrop : (m ++ [b]).drop (64 * (m.length / 64)) = m.drop (64 * (m.length / 64)) ++ [b] :=
    List.drop_append_of_le_length (by omega)
  rw [step]
  simp only
  by_cases hfull : x.blocklen + 1 = 64
  · rw [if_pos hfull, transform_spec _ (by simpa using h1)]
    have hdiv : (m.length + 1) / 64 = m.length / 64 + 1 := by omega
    have hblk : x.data.set x.blocklen b = (m ++ [b]).drop (64 * (m.length / 64)) := by
      rw [hdrop, ← htk, hfull, List.take_of_length_le (by simp [h1])]
    refine ⟨by simpa using h1, ?_, ?_, ?_, ?_⟩
    · simp only; omega
    · simp only
      rw [h3, hmb, hdiv, mul_add, UInt64.ofNat_add]; rfl
    · simp only
      rw [hmb, hdiv, hashAfter, h4, hashAfter_append m [b] _ (by omega)]
      exact compress_congr (fun j _ => by rw [word_drop (m ++ [b]), ← hblk]) _
    · simp only
      rw [List.take_zero, hmb, hdiv, List.drop_of_length_le (by omega)]
  · rw [if_neg hfull]
    have hdiv : (m.length + 1) / 64 = m.length / 64 := by omega
    refine ⟨by simpa using h1, ?_, ?_, ?_, ?_⟩
    · simp only; omega
    · simp only; rw [h3, hmb, hdiv]
    · simp only; rw [h4, hmb, hdiv, hashAfter_append m [b] _ (by omega)]
    · simp only; rw [htk, hmb, hdiv, hdrop]

theorem update_inv : ∀ (bs : List UInt8) {x : Sha256} {m : List UInt8}, Inv x m → Inv (x.update bs) (m ++ bs)
  | [], x, m, h => by rw [List.append_nil]; exact h
  | b :: bs, x, m, h => by
    have := update_inv bs (step_inv h b)
    rw [List.append_assoc] at this
    exact this

theorem updates_inv : ∀ (ps : List (List UInt8)) {x : Sha256} {m : List UInt8}, Inv x m →
    Inv (ps.foldl update x) (m ++ ps.flatten)
  | [], x, m, h => by rw [List.flatten_nil, List.append_nil]; exact h
  | q :: ps, x, m, h => by
    have := updates_inv ps (update_inv q h)
    rw [List.append_assoc] at this
    exact this

/-! ## Padding -/

theorem be8 (v : UInt64) (n : ℕ) (h : v = UInt64.ofNat n) :
    [(v >>> 56).toUInt8, (v >>> 48).toUInt8, (v >>> 40).toUInt8, (v >>> 32).toUInt8,
     (v >>> 24).toUInt8, (v >>> 16).toUInt8, (v >>> 8).toUInt8, v.toUInt8] = be 8 n := by
  have aux : ∀ k : UInt64, k.toNat < 64 → 8 ≤ 64 - k.toNat → (v >>> k).toUInt8 = UInt8.ofNat (n / 2 ^ k.toNat) := by
    intro k hk hk8
    apply UInt8.toNat_inj.1
    rw [UInt64.toNat_toUInt8, UInt64.toNat_shiftRight, UInt8.toNat_ofNat', h, UInt64.toNat_ofNat', Nat.mod_eq_of_lt hk,
      Nat.shiftRight_eq_div_pow]
    have : 2 ^ 64 = 2 ^ k.toNat * 2 ^ (64 - k.toNat) := by rw [← pow_add]; congr 1; omega
    rw [this, Nat.mod_mul_right_div_self, Nat.mod_mod_of_dvd _ (pow_dvd_pow 2 hk8)]
  have h0 : v.toUInt8 = UInt8.ofNat n := by
    apply UInt8.toNat_inj.1
    rw [UInt64.toNat_toUInt8, UInt8.toNat_ofNat', h, UInt64.toNat_ofNat', Nat.mod_mod_of_dvd _ (pow_dvd_pow 2 (by norm_num))]
  rw [aux 56 (by decide) (by decide), aux 48 (by decide) (by decide), aux 40 (by decide) (by decide),
    aux 32 (by decide) (by decide), aux 24 (by decide) (by decide), aux 16 (by decide) (by decide),
    aux 8 (by decide) (by decide), h0]
  unfold be
  simp only [List.range_succ, List.range_zero, List.nil_append, List.cons_append, List.map_cons, List.map_nil]
  norm_num
  exact ⟨rfl, rfl, rfl, rfl, rfl, rfl, rfl⟩

theorem be_length (n v : ℕ) : (be n v).length = n := by rw [be, List.length_map, List.length_range]

theorem pad_spec {x : Sha256} {m : List UInt8} (h : Inv x m) :
    x.pad.state = hashAfter K H0 (Fips.pad m) ((Fips.pad m).length / 64) := by
  obtain ⟨h1, h2, h3, h4, h5⟩ := h
  have hlen : x.bitlen + UInt64.ofNat (x.blocklen * 8) = UInt64.ofNat (8 * m.length) := by
    rw [h3, h2, ← UInt64.ofNat_add]; congr 1; omega
  have hbe := be8 _ _ hlen
  have hdl : (m.drop (64 * (m.length / 64))).length = m.length % 64 := by rw [List.length_drop]; omega
  set n := m.length / 64 with hn
  by_cases hb : x.blocklen < 56
  · have hpl : (Fips.pad m).length = 64 * (n + 1) := by
      simp only [Fips.pad, List.length_append, List.length_replicate, be_length, List.length_cons, List.length_nil]
      omega
    have hpd : (Fips.pad m).drop (64 * n) = x.data.take x.blocklen ++ [0x80] ++
        List.replicate (56 - (x.blocklen + 1)) 0 ++ be 8 (8 * m.length) := by
      rw [Fips.pad, h5, List.append_assoc, List.append_assoc, List.drop_append_of_le_length (by omega),
        List.append_assoc, List.append_assoc, show (119 - m.length % 64) % 64 = 56 - (x.blocklen + 1) by omega]
    have hd : ∀ r : List UInt8, (x.data.take x.blocklen ++ [0x80] ++ List.replicate (56 - (x.blocklen + 1)) 0 ++
        r).take 56 = x.data.take x.blocklen ++ [0x80] ++ List.replicate (56 - (x.blocklen + 1)) 0 := by
      intro r
      exact List.take_left' (by simp [h1]; omega)
    rw [pad]
    simp only
    rw [if_pos hb, if_neg (by omega)]
    simp only
    rw [hbe, hd, ← hpd, transform_spec _ (by simp only [List.length_drop]; omega), hpl, Nat.mul_div_cancel_left _ (by norm_num)]
    simp only
    rw [hashAfter, h4, Fips.pad, List.append_assoc, List.append_assoc, hashAfter_append m _ n (by omega)]
    exact compress_congr (fun j _ => (word_drop _ _ _).symm) _
  · have hpl : (Fips.pad m).length = 64 * (n + 2) := by
      simp only [Fips.pad, List.length_append, List.length_replicate, be_length, List.length_cons, List.length_nil]
      omega
    set d1 := x.data.take x.blocklen ++ [0x80] ++ List.replicate (64 - (x.blocklen + 1)) 0 with hd1
    set d2 := List.replicate 56 (0 : UInt8) ++ be 8 (8 * m.length) with hd2
    have hl1 : d1.length = 64 := by simp [hd1, h1]; omega
    have hl2 : d2.length = 64 := by simp [hd2, be_length]
    have hpd : (Fips.pad m).drop (64 * n) = d1 ++ d2 := by
      rw [Fips.pad, hd1, h5, List.append_assoc, List.append_assoc, List.drop_append_of_le_length (by omega),
        show (119 - m.length % 64) % 64 = (64 - (x.blocklen + 1)) + 56 by omega, ← List.replicate_append_replicate]
      simp only [hd2, List.append_assoc]
    rw [pad]
    simp only
    rw [if_neg hb, if_pos (by omega), List.drop_of_length_le (by omega : x.data.length ≤ 64), List.append_nil, ← hd1]
    have ht1 := transform_spec { x with data := d1 } hl1
    simp only at ht1
    rw [ht1]
    simp only
    rw [hbe, List.take_left' (by simp), ← hd2, transform_spec _ hl2, hpl, Nat.mul_div_cancel_left _ (by norm_num)]
    simp only
    have hp0 : hashAfter K H0 (Fips.pad m) n = x.state := by
      rw [h4, Fips.pad, List.append_assoc, List.append_assoc, hashAfter_append m _ n (by omega)]
    rw [hashAfter, hashAfter, hp0]
    rw [compress_congr (M := word (Fips.pad m) n) (M' := word d1 0) (fun j hj => by
      rw [word_drop, hpd, word_append _ _ _ (by omega) hj])]
    refine compress_congr (fun j _ => ?_) _
    rw [word_drop (Fips.pad m), mul_add, mul_one, ← List.drop_drop, hpd, List.drop_left' hl1]

theorem revertWord_eq (w : UInt32) : revertWord w = be 4 w.toNat := by
  have aux : ∀ k : UInt32, k.toNat < 32 → ((w >>> k) &&& 0xff).toUInt8 = UInt8.ofNat (w.toNat / 2 ^ k.toNat) := by
    intro k hk
    apply UInt8.toNat_inj.1
    rw [UInt32.toNat_toUInt8, UInt32.toNat_and, UInt32.toNat_shiftRight, UInt8.toNat_ofNat', Nat.mod_eq_of_lt hk,
      Nat.shiftRight_eq_div_pow, show (255 : UInt32).toNat = 2 ^ 8 - 1 from rfl, Nat.and_two_pow_sub_one_eq_mod,
      Nat.mod_mod]
  unfold revertWord be
  simp only [List.range_succ, List.range_zero, List.nil_append, List.cons_append, List.map_cons, List.map_nil]
  rw [aux _ (by decide), aux _ (by decide), aux _ (by decide), aux _ (by decide)]
  norm_num [show ((24 : UInt32) - 0).toNat = 24 from rfl, show ((24 : UInt32) - 8).toNat = 16 from rfl,
    show ((24 : UInt32) - 16).toNat = 8 from rfl, show ((24 : UInt32) - 24).toNat = 0 from rfl]
  rfl

theorem digest_spec {x : Sha256} {m : List UInt8} (h : Inv x m) :
    x.digest = Fips.digest (hashAfter K H0 (Fips.pad m) ((Fips.pad m).length / 64)) := by
  rw [digest, pad_spec h, revert, Fips.digest]
  simp only [revertWord_eq]

theorem digest_isSha256 {x : Sha256} {m : List UInt8} (h : Inv x m) : IsSha256 m x.digest :=
  ⟨K, H0, K_isK, H0_isH0, digest_spec h⟩

/-! ## The specification determines the digest -/

theorem fracRoot_unique {e n : ℕ} (he : e ≠ 0) {k l : UInt32} (hk : IsFracRoot e n k) (hl : IsFracRoot e n l) : k = l := by
  obtain ⟨i, _, h1, h2⟩ := hk
  obtain ⟨j, _, g1, g2⟩ := hl
  have a1 := (Nat.pow_lt_pow_iff_left he).1 (lt_of_le_of_lt h1 g2)
  have a2 := (Nat.pow_lt_pow_iff_left he).1 (lt_of_le_of_lt g1 h2)
  have := k.toNat_lt; have := l.toNat_lt
  apply UInt32.toNat_inj.1
  omega

theorem forall₂_unique {e : ℕ} (he : e ≠ 0) : ∀ {ns : List ℕ} {a b : List UInt32}, List.Forall₂ (IsFracRoot e) ns a →
    List.Forall₂ (IsFracRoot e) ns b → a = b
  | _, _, _, .nil, .nil => rfl
  | _, _, _, .cons h t, .cons h' t' => by rw [fracRoot_unique he h h', forall₂_unique he t t']

theorem isSha256_unique {m h h' : List UInt8} (a : IsSha256 m h) (b : IsSha256 m h') : h = h' := by
  obtain ⟨K1, H1, hk, hh, rfl⟩ := a
  obtain ⟨K2, H2, hk', hh', rfl⟩ := b
  have e1 : K1 = K2 := forall₂_unique (by norm_num) hk hk'
  have e2 : H1 = H2 := by
    have := forall₂_unique (by norm_num) hh hh'
    cases H1; cases H2
    simp only [List.cons.injEq, and_true] at this
    simp only [Words8.mk.injEq]
    exact this
  rw [e1, e2]

theorem hash_isSha256 (ps : List (List UInt8)) : IsSha256 ps.flatten (hash ps) := by
  have := updates_inv ps (init_inv (List.replicate 64 0) (by simp))
  exact digest_isSha256 this

theorem hash_eq (ps : List (List UInt8)) : hash ps = hash [ps.flatten] := by
  refine isSha256_unique (hash_isSha256 ps) ?_
  have := hash_isSha256 [ps.flatten]
  rwa [List.flatten_singleton] at this

theorem hash_length (ps : List (List UInt8)) : (hash ps).length = 32 := by
  rw [hash, digest, revert]
  simp [revertWord]

end Bls.Sha256
