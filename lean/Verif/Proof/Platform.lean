import Verif.Model.Platform
import Verif.Proof.Hex
import Verif.Proof.Malloc
import Verif.Proof.WeightedSum

/-! # Widths of `size_t` and kinds of `char` -/

namespace Bls.Platform

open Hash (writeAt)

/-! ## Text -/

/-- The bytes of the pairs of characters. -/
def hexPairs (signed : Bool) : List UInt8 → List UInt8
  | a :: b :: s => hexByte signed a b :: hexPairs signed s
  | _ => []

theorem hexByte_true : hexByte true = Bls.hexByte := rfl

theorem hexPairs_true : ∀ s, hexPairs true s = Bls.hexLoop s
  | [] => rfl
  | [_] => rfl
  | a :: b :: s => by rw [hexPairs, Bls.hexLoop, hexPairs_true s, hexByte_true]

theorem hexLoop_eq {signed : Bool} {w : ℕ} {s : List UInt8} (hs : s.length < 2 ^ w) : ∀ r j, j + 2 * r = s.length →
    hexLoop signed w s r j = some (hexPairs signed (s.drop j))
  | 0, j, h => by rw [hexLoop, List.drop_eq_nil_of_le (by omega), hexPairs]; simp
  | r + 1, j, h => by
    have h1 : j < s.length := by omega
    have h2 : j + 1 < s.length := by omega
    rw [hexLoop, Nat.mod_eq_of_lt (by omega : j + 1 < 2 ^ w), List.getElem?_eq_getElem h1, List.getElem?_eq_getElem h2]
    dsimp only
    rw [Nat.mod_eq_of_lt (by omega : j + 2 < 2 ^ w), hexLoop_eq hs r (j + 2) (by omega), Option.map_some,
      List.drop_eq_getElem_cons h1, List.drop_eq_getElem_cons h2, hexPairs]

/-- `hexToBytes` for either kind of `char`: everything except the pairs is the same. -/
theorem hexToBytes_eq {signed : Bool} {w : ℕ} {s : List UInt8} (hs : s.length < 2 ^ w) : hexToBytes signed w s =
    match s with
    | [] => none
    | [c] => if c = 48 then none else some []
    | c :: d :: t =>
      if (c :: d :: t).length % 2 ≠ 0 then some []
      else some (hexPairs signed (if c = 48 ∧ d = 120 then t else c :: d :: t)) := by
  match s with
  | [] => rfl
  | [c] =>
    rw [hexToBytes]
    by_cases h : c = 48 <;> simp [h]
  | c :: d :: t =>
    rw [hexToBytes]
    by_cases h2 : (c :: d :: t).length % 2 = 0
    · have hl : (c :: d :: t).length = t.length + 2 := rfl
      by_cases h : c = 48
      · by_cases h' : d = 120
        · subst h; subst h'
          have e := hexLoop_eq (signed := signed) hs (((48 : UInt8) :: 120 :: t).length / 2 - 1) 2 (by omega)
          simp only [List.getElem?_cons_zero, List.getElem?_cons_succ, Option.bind_some, Option.map_some, if_true, h2, ne_eq,
            not_true_eq_false, if_false, and_self]
          rw [show (((48 : UInt8) :: 120 :: t).length - 2) / 2 = ((48 : UInt8) :: 120 :: t).length / 2 - 1 by omega, e]
          rfl
        · subst h
          have e := hexLoop_eq (signed := signed) hs (((48 : UInt8) :: d :: t).length / 2) 0 (by omega)
          simp only [List.getElem?_cons_zero, List.getElem?_cons_succ, Option.bind_some, Option.map_some, if_true, h2, ne_eq,
            not_true_eq_false, if_false, h', and_false]
          rw [Nat.sub_zero, e]; rfl
      · have e := hexLoop_eq (signed := signed) hs ((c :: d :: t).length / 2) 0 (by omega)
        simp only [List.getElem?_cons_zero, Option.bind_some, h2, ne_eq,
            not_true_eq_false, if_false, h, false_and]
        rw [Nat.sub_zero, e]; rfl
    · by_cases h : c = 48
      · simp only [List.getElem?_cons_zero, List.getElem?_cons_succ, Option.bind_some, Option.map_some, if_pos h, ne_eq, h2,
          not_false_eq_true, if_true]
      · simp only [List.getElem?_cons_zero, Option.bind_some, if_neg h, ne_eq, h2, not_false_eq_true, if_true]

theorem hexToBytes_true {w : ℕ} {s : List UInt8} (hs : s.length < 2 ^ w) : hexToBytes true w s = Bls.hexToBytes s := by
  rw [hexToBytes_eq hs]
  match s with
  | [] => rfl
  | [c] => rfl
  | c :: d :: t => rw [Bls.hexToBytes]; simp only [hexPairs_true]

theorem nibble_false : ∀ c : UInt8, nibble false c = nibble true (c &&& 127) := by
  have h : ∀ n : Fin 256, nibble false (UInt8.ofNat n.1) = nibble true (UInt8.ofNat n.1 &&& 127) := by decide +kernel
  intro c
  have := h ⟨c.toNat, c.toNat_lt⟩
  rwa [UInt8.ofNat_toNat] at this

theorem mask_ascii : ∀ c : UInt8, c.toNat < 128 → c &&& 127 = c := by
  have h : ∀ n : Fin 256, n.1 < 128 → UInt8.ofNat n.1 &&& 127 = UInt8.ofNat n.1 := by decide +kernel
  intro c hc
  have := h ⟨c.toNat, c.toNat_lt⟩ hc
  rwa [UInt8.ofNat_toNat] at this

theorem hexPairs_false : ∀ s, hexPairs false s = Bls.hexLoop (s.map (· &&& 127))
  | [] => rfl
  | [_] => rfl
  | a :: b :: s => by
    rw [hexPairs, List.map_cons, List.map_cons, Bls.hexLoop, hexPairs_false s, ← hexByte_true, hexByte, hexByte, nibble_false,
      nibble_false]

theorem map_mask {s : List UInt8} (h : ∀ c ∈ s, c.toNat < 128) : s.map (· &&& 127) = s := by
  conv_rhs => rw [← List.map_id s]
  exact List.map_congr_left fun c hc => mask_ascii c (h c hc)

theorem hexPairs_ascii {s : List UInt8} (h : ∀ c ∈ s, c.toNat < 128) (signed : Bool) : hexPairs signed s = Bls.hexLoop s := by
  cases signed
  · rw [hexPairs_false, map_mask h]
  · exact hexPairs_true s

theorem hexToBytes_ascii {w : ℕ} {s : List UInt8} (hs : s.length < 2 ^ w) (h : ∀ c ∈ s, c.toNat < 128) (signed : Bool) :
    hexToBytes signed w s = Bls.hexToBytes s := by
  rw [hexToBytes_eq hs]
  match s with
  | [] => rfl
  | [c] => rfl
  | c :: d :: t =>
    rw [Bls.hexToBytes]
    dsimp only
    rw [hexPairs_ascii]
    intro x hx
    split_ifs at hx
    · exact h x (List.mem_cons_of_mem _ (List.mem_cons_of_mem _ hx))
    · exact h x hx

theorem hexLoopN_eq (signed : Bool) (h : ∀ a b : UInt8, a.toNat < 128 → b.toNat < 128 →
    hexByte signed a b = Bls.hexByte a b) : ∀ n (s : List UInt8), (∀ c ∈ s, c.toNat < 128) →
    hexLoopN signed n s = Bls.hexLoopN n s
  | 0, s, _ => by rw [hexLoopN, Bls.hexLoopN]
  | n + 1, [], _ => rfl
  | n + 1, [_], _ => rfl
  | n + 1, a :: b :: s, hc => by
    rw [hexLoopN, Bls.hexLoopN, hexLoopN_eq signed h n s fun c k => hc c (List.mem_cons_of_mem _ (List.mem_cons_of_mem _ k)),
      h a b (hc a (by simp)) (hc b (by simp))]
    cases Bls.hexLoopN n s <;> rfl

theorem hexByte_ascii (signed : Bool) {a b : UInt8} (ha : a.toNat < 128) (hb : b.toNat < 128) :
    hexByte signed a b = Bls.hexByte a b := by
  cases signed
  · rw [← hexByte_true, hexByte, hexByte, nibble_false, nibble_false, mask_ascii a ha, mask_ascii b hb]
  · rfl

theorem hexToBytesN_ascii (signed : Bool) (n : ℕ) {s : List UInt8} (h : ∀ c ∈ s, c.toNat < 128) :
    hexToBytesN signed n s = Bls.hexToBytesN n s := by
  have h0 : ∀ c ∈ s ++ [0], c.toNat < 128 := by
    intro c hc
    rcases List.mem_append.1 hc with k | k
    · exact h c k
    · rw [List.mem_singleton.1 k]; decide
  have e := hexLoopN_eq signed fun a b ha hb => hexByte_ascii signed ha hb
  rw [hexToBytesN, Bls.hexToBytesN]
  generalize s ++ [0] = l at h0 ⊢
  match l with
  | [] => exact e n _ h0
  | [_] => exact e n _ h0
  | c :: d :: t =>
    dsimp only
    refine e n _ fun x hx => ?_
    split_ifs at hx
    · exact h0 x (List.mem_cons_of_mem _ (List.mem_cons_of_mem _ hx))
    · exact h0 x hx

theorem hexToBytesN_true (n : ℕ) (s : List UInt8) : hexToBytesN true n s = Bls.hexToBytesN n s := by
  have e : ∀ n s, hexLoopN true n s = Bls.hexLoopN n s := by
    intro n
    induction n with
    | zero => intro s; rw [hexLoopN, Bls.hexLoopN]
    | succ n ih =>
      intro s
      match s with
      | [] => rfl
      | [_] => rfl
      | a :: b :: s =>
        rw [hexLoopN, Bls.hexLoopN, ih, hexByte_true]
        cases Bls.hexLoopN n s <;> rfl
  rw [hexToBytesN, Bls.hexToBytesN]
  generalize s ++ [0] = l
  match l with
  | [] => exact e n _
  | [_] => exact e n _
  | c :: d :: t => exact e n _

/-! ## Writing text -/

theorem put_length {s t : List UInt8} {i : ℕ} {c : UInt8} (h : put s i c = some t) : t.length = s.length := by
  unfold put at h
  split_ifs at h
  · rw [← Option.some.inj h, List.length_set]

/-- The digits of the bytes. -/
def digits (bs : List UInt8) : List UInt8 :=
  bs.flatMap fun (b : UInt8) => [hexmap.getD ((b &&& 0xF0) >>> 4).toNat 0, hexmap.getD (b &&& 0x0F).toNat 0]

theorem digits_length : ∀ bs, (digits bs).length = 2 * bs.length
  | [] => rfl
  | b :: bs => by
    have := digits_length bs
    unfold digits at this ⊢
    rw [List.flatMap_cons, List.length_append, this, List.length_cons]
    simp only [List.length_cons, List.length_nil]
    omega

theorem hexStore_eq {w : ℕ} : ∀ (bs : List UInt8) (i : ℕ) (pre rest : List UInt8), pre.length = 2 + 2 * i →
    rest.length = 2 * bs.length → pre.length + rest.length < 2 ^ w →
    hexStore w bs i (pre ++ rest) = some (pre ++ digits bs)
  | [], i, pre, rest, _, hr, _ => by
    obtain rfl : rest = [] := List.length_eq_zero_iff.1 (by rw [hr]; rfl)
    rw [hexStore]; rfl
  | b :: bs, i, pre, rest, hp, hr, hw => by
    rw [List.length_cons] at hr
    match rest, hr with
    | x :: y :: rest, hr =>
      simp only [List.length_cons] at hr hw
      rw [hexStore, Nat.mod_eq_of_lt (by omega), put, if_pos (by rw [List.length_append]; simp only [List.length_cons]; omega),
        Option.bind_some, List.set_append_right _ _ (by omega), show 2 + 2 * i - pre.length = 0 by omega, List.set_cons_zero,
        Nat.mod_eq_of_lt (by omega), put, if_pos (by rw [List.length_append]; simp only [List.length_cons]; omega),
        Option.bind_some, List.set_append_right _ _ (by omega), show 2 + 2 * i + 1 - pre.length = 1 by omega,
        List.set_cons_succ, List.set_cons_zero]
      have e := hexStore_eq (w := w) bs (i + 1) (pre ++ [hexmap.getD ((b &&& 0xF0) >>> 4).toNat 0, hexmap.getD (b &&& 0x0F).toNat 0])
        rest (by rw [List.length_append, hp]; simp only [List.length_cons, List.length_nil]; omega) (by omega)
        (by rw [List.length_append]; simp only [List.length_cons, List.length_nil]; omega)
      rw [List.append_assoc, List.append_assoc] at e
      exact e

theorem hexStore_none {w : ℕ} (hw : 1 ≤ w) : ∀ (bs : List UInt8) (i : ℕ) (s : List UInt8), 2 * i + 4 ≤ 2 ^ w →
    2 ^ w ≤ 2 * (i + bs.length) + 2 → s.length < 2 ^ w → hexStore w bs i s = none
  | [], i, s, h1, h2, _ => by rw [List.length_nil] at h2; omega
  | b :: bs, i, s, h1, h2, hs => by
    rw [List.length_cons] at h2
    rw [hexStore]
    cases h3 : put s ((2 + 2 * i) % 2 ^ w) (hexmap.getD ((b &&& 0xF0) >>> 4).toNat 0) with
    | none => rfl
    | some t =>
      have l3 := put_length h3
      rw [Option.bind_some]
      cases h4 : put t ((2 + 2 * i + 1) % 2 ^ w) (hexmap.getD (b &&& 0x0F).toNat 0) with
      | none => rfl
      | some u =>
        have l4 := put_length h4
        rw [Option.bind_some]
        by_cases h : 2 * (i + 1) + 4 ≤ 2 ^ w
        · exact hexStore_none hw bs (i + 1) u h (by omega) (by omega)
        · exfalso
          have he : 2 ∣ 2 ^ w := dvd_pow_self 2 (by omega)
          rw [Nat.mod_eq_of_lt (by omega), put] at h4
          split_ifs at h4 with h5
          omega

theorem bytesToHex_ok {w max : ℕ} (bs : List UInt8) (h : 2 * bs.length + 2 < 2 ^ w) (hm : 2 * bs.length + 2 ≤ max) :
    bytesToHex w max bs = some (.ok (Bls.bytesToHex bs)) := by
  have e : (2 + bs.length * 2 % 2 ^ w) % 2 ^ w = 2 * bs.length + 2 := by
    rw [Nat.mod_eq_of_lt (by omega : bs.length * 2 < 2 ^ w), Nat.mod_eq_of_lt (by omega)]; omega
  rw [bytesToHex]
  simp only [e]
  rw [if_neg (by omega), put, if_pos (by rw [List.length_replicate]; omega), Option.bind_some,
    put, if_pos (by rw [List.length_set, List.length_replicate]; omega), Option.bind_some]
  have e2 : ((List.replicate (2 * bs.length + 2) (32 : UInt8)).set 0 48).set 1 120 = [48, 120] ++ List.replicate (2 * bs.length) 32 := by
    rw [List.replicate_succ, List.replicate_succ]; rfl
  rw [e2, hexStore_eq bs 0 [48, 120] _ rfl List.length_replicate (by rw [List.length_replicate]; simp only [List.length_cons, List.length_nil]; omega)]
  rfl

theorem bytesToHex_error {w max : ℕ} (bs : List UInt8) (h : 2 * bs.length + 2 < 2 ^ w) (hm : max < 2 * bs.length + 2) :
    bytesToHex w max bs = some (.error ()) := by
  have e : (2 + bs.length * 2 % 2 ^ w) % 2 ^ w = 2 * bs.length + 2 := by
    rw [Nat.mod_eq_of_lt (by omega : bs.length * 2 < 2 ^ w), Nat.mod_eq_of_lt (by omega)]; omega
  rw [bytesToHex]
  simp only [e]
  rw [if_pos hm]

/-- The size wraps around and the string is too short for its first or for its last characters. -/
theorem bytesToHex_none {w max : ℕ} (hw : 2 ≤ w) (bs : List UInt8) (h : 2 ^ w ≤ 2 * bs.length + 2)
    (hm : (2 * bs.length + 2) % 2 ^ w ≤ max) : bytesToHex w max bs = none := by
  have hw' : 4 ≤ 2 ^ w := by
    calc 4 = 2 ^ 2 := rfl
      _ ≤ 2 ^ w := Nat.pow_le_pow_right (by decide) hw
  have e : (2 + bs.length * 2 % 2 ^ w) % 2 ^ w = (2 * bs.length + 2) % 2 ^ w := by
    rw [Nat.add_mod_mod]; congr 1; omega
  have hlt : (2 * bs.length + 2) % 2 ^ w < 2 ^ w := Nat.mod_lt _ (by omega)
  rw [bytesToHex]
  simp only [e]
  rw [if_neg (by omega)]
  cases h3 : put (List.replicate ((2 * bs.length + 2) % 2 ^ w) 32) 0 48 with
  | none => rfl
  | some t =>
    have l3 := put_length h3
    rw [Option.bind_some]
    cases h4 : put t 1 120 with
    | none => rfl
    | some u =>
      have l4 := put_length h4
      rw [List.length_replicate] at l3
      rw [Option.bind_some, hexStore_none (by omega) bs 0 u (by omega) (by omega) (by omega)]
      rfl

/-! ## Key derivation -/

theorem malloc_length (w : ℕ) (block : ℕ → UInt8) (n : ℕ) : (malloc w block n).length = n % 2 ^ w := by
  rw [malloc, List.length_map, List.length_range]

theorem writeAt_length {buf bs out : List UInt8} {off : ℕ} (h : writeAt buf off bs = some out) : out.length = buf.length := by
  rw [writeAt] at h
  split_ifs at h
  rw [← Option.some.inj h]
  simp only [List.length_append, List.length_take, List.length_drop]
  omega

theorem writeAt_short {buf bs : List UInt8} {off : ℕ} (h : buf.length < off + bs.length) : writeAt buf off bs = none := by
  rw [writeAt, if_neg (by omega)]

/-- The next piece after `a`. -/
theorem writeAt_next {a b rest : List UInt8} {off : ℕ} (ha : a.length = off) (hb : b.length ≤ rest.length) :
    writeAt (a ++ rest) off b = some (a ++ (b ++ rest.drop b.length)) := by
  subst ha
  rw [writeAt, if_pos (by rw [List.length_append]; omega), List.take_left, ← List.drop_drop, List.drop_left, List.append_assoc]

theorem writeAt_first {b rest : List UInt8} (hb : b.length ≤ rest.length) :
    writeAt rest 0 b = some (b ++ rest.drop b.length) := writeAt_next (a := []) rfl hb

theorem mod_pow_mod {w : ℕ} (hw : w ≤ 64) (n : ℕ) : n % 2 ^ 64 % 2 ^ w = n % 2 ^ w :=
  Nat.mod_mod_of_dvd _ (pow_dvd_pow 2 hw)

theorem hmac_ok {w : ℕ} (hw : w ≤ 64) (block : ℕ → UInt8) {text key : List UInt8} (h : 64 + text.length < 2 ^ w) :
    hmac w block text key = some (Hash.hmac text key) := by
  rw [hmac, Hash.hmac]
  rw [mod_pow_mod hw, Nat.mod_eq_of_lt h]
  have hk : (if key.length > 64 then Sha256.hash [key] else key).length ≤ 64 := by
    split_ifs with h
    · rw [Sha256.hash_length]; decide
    · omega
  generalize (if key.length > 64 then Sha256.hash [key] else key) = k at hk ⊢
  have hl : (k ++ List.replicate (64 - k.length) 0).length = 64 := by
    rw [List.length_append, List.length_replicate]; omega
  generalize k ++ List.replicate (64 - k.length) 0 = k' at hl ⊢
  have hm := malloc_length w block ((64 + text.length) % 2 ^ 64)
  rw [mod_pow_mod hw, Nat.mod_eq_of_lt h] at hm
  generalize malloc w block ((64 + text.length) % 2 ^ 64) = buf at hm ⊢
  have hx : (k'.map (0x36 ^^^ ·)).length = 64 := by rw [List.length_map, hl]
  rw [writeAt_first (by omega), Option.bind_some, writeAt_next hx (by rw [List.length_drop]; omega), Option.map_some,
    List.drop_eq_nil_of_le (by rw [List.length_drop]; omega), List.append_nil, List.take_of_length_le (by rw [List.length_append]; omega)]

theorem hmac_none {w : ℕ} (hw : w ≤ 64) (block : ℕ → UInt8) {text key : List UInt8} (h : 2 ^ w ≤ 64 + text.length) :
    hmac w block text key = none := by
  rw [hmac]
  have hm := malloc_length w block ((64 + text.length) % 2 ^ 64)
  rw [mod_pow_mod hw] at hm
  have hlt : (64 + text.length) % 2 ^ w < 64 + text.length :=
    lt_of_lt_of_le (Nat.mod_lt _ (Nat.pow_pos (by decide))) h
  cases h1 : writeAt (malloc w block ((64 + text.length) % 2 ^ 64)) 0
      (List.map (0x36 ^^^ ·) ((if key.length > 64 then Sha256.hash [key] else key) ++
        List.replicate (64 - (if key.length > 64 then Sha256.hash [key] else key).length) 0)) with
  | none => rfl
  | some buf =>
    rw [Option.bind_some, writeAt_short (by rw [writeAt_length h1]; omega)]
    rfl

/-- The input of the first iteration of `hkdf256_expand`. -/
theorem first_ok {w : ℕ} (hw : w ≤ 64) (block : ℕ → UInt8) {info : List UInt8} (c : UInt8) (prk : List UInt8)
    (h : info.length + 65 < 2 ^ w) :
    ((writeAt (malloc w block ((info.length + 1) % 2 ^ w)) 0 info).bind fun buf =>
      (writeAt buf info.length [c]).bind fun buf => hmac w block (buf.take ((info.length + 1) % 2 ^ w)) prk) =
    some (Hash.hmac (info ++ [c]) prk) := by
  have hm := malloc_length w block ((info.length + 1) % 2 ^ w)
  rw [Nat.mod_mod, Nat.mod_eq_of_lt (by omega)] at hm
  rw [Nat.mod_eq_of_lt (by omega : info.length + 1 < 2 ^ w)]
  rw [writeAt_first (by omega), Option.bind_some, writeAt_next rfl (by rw [List.length_drop, List.length_singleton]; omega),
    Option.bind_some, List.drop_eq_nil_of_le (by rw [List.length_drop, List.length_singleton]; omega), List.append_nil,
    List.take_of_length_le (by rw [List.length_append, List.length_singleton]),
    hmac_ok hw block (by rw [List.length_append, List.length_singleton]; omega)]

theorem first_none {w : ℕ} (hw : w ≤ 64) (block : ℕ → UInt8) {info : List UInt8} (c : UInt8) (prk : List UInt8)
    (h : 2 ^ w ≤ info.length + 65) :
    ((writeAt (malloc w block ((info.length + 1) % 2 ^ w)) 0 info).bind fun buf =>
      (writeAt buf info.length [c]).bind fun buf => hmac w block (buf.take ((info.length + 1) % 2 ^ w)) prk) = none := by
  have hm := malloc_length w block ((info.length + 1) % 2 ^ w)
  rw [Nat.mod_mod] at hm
  by_cases hi : info.length + 1 < 2 ^ w
  · rw [Nat.mod_eq_of_lt hi] at hm ⊢
    rw [writeAt_first (by omega), Option.bind_some, writeAt_next rfl (by rw [List.length_drop, List.length_singleton]; omega),
      Option.bind_some, List.drop_eq_nil_of_le (by rw [List.length_drop, List.length_singleton]; omega), List.append_nil,
      List.take_of_length_le (by rw [List.length_append, List.length_singleton]),
      hmac_none hw block (by rw [List.length_append, List.length_singleton]; omega)]
  · have hlt : (info.length + 1) % 2 ^ w < info.length + 1 :=
      lt_of_lt_of_le (Nat.mod_lt _ (Nat.pow_pos (by decide))) (by omega)
    cases h1 : writeAt (malloc w block ((info.length + 1) % 2 ^ w)) 0 info with
    | none => rfl
    | some buf =>
      rw [Option.bind_some, writeAt_short (by rw [writeAt_length h1, List.length_singleton]; omega)]
      rfl

/-- The input of the later iterations. -/
theorem next_ok {w : ℕ} (hw : w ≤ 64) (block : ℕ → UInt8) {t info : List UInt8} (ht : t.length = 32) (c : UInt8)
    (prk : List UInt8) (h : info.length + 97 < 2 ^ w) :
    ((writeAt (malloc w block ((32 + info.length + 1) % 2 ^ w)) 0 t).bind fun buf =>
      (writeAt buf 32 info).bind fun buf => (writeAt buf ((32 + info.length) % 2 ^ w) [c]).bind fun buf =>
      hmac w block (buf.take ((32 + info.length + 1) % 2 ^ w)) prk) =
    some (Hash.hmac (t ++ info ++ [c]) prk) := by
  have hm := malloc_length w block ((32 + info.length + 1) % 2 ^ w)
  rw [Nat.mod_mod, Nat.mod_eq_of_lt (by omega)] at hm
  rw [Nat.mod_eq_of_lt (by omega : 32 + info.length + 1 < 2 ^ w), Nat.mod_eq_of_lt (by omega : 32 + info.length < 2 ^ w)]
  rw [writeAt_first (by omega), Option.bind_some, writeAt_next ht (by rw [List.length_drop]; omega), Option.bind_some,
    ← List.append_assoc, writeAt_next (by rw [List.length_append, ht])
      (by simp only [List.length_drop, List.length_singleton]; omega), Option.bind_some,
    List.drop_eq_nil_of_le (by simp only [List.length_drop, List.length_singleton]; omega), List.append_nil,
    List.take_of_length_le (by simp only [List.length_append, List.length_singleton]; omega),
    hmac_ok hw block (by simp only [List.length_append, List.length_singleton]; omega)]

theorem next_none {w : ℕ} (hw : w ≤ 64) (block : ℕ → UInt8) {t info : List UInt8} (ht : t.length = 32) (c : UInt8)
    (prk : List UInt8) (h : 2 ^ w ≤ info.length + 97) :
    ((writeAt (malloc w block ((32 + info.length + 1) % 2 ^ w)) 0 t).bind fun buf =>
      (writeAt buf 32 info).bind fun buf => (writeAt buf ((32 + info.length) % 2 ^ w) [c]).bind fun buf =>
      hmac w block (buf.take ((32 + info.length + 1) % 2 ^ w)) prk) = none := by
  have hm := malloc_length w block ((32 + info.length + 1) % 2 ^ w)
  rw [Nat.mod_mod] at hm
  by_cases hi : 32 + info.length + 1 < 2 ^ w
  · rw [Nat.mod_eq_of_lt hi] at hm ⊢
    rw [Nat.mod_eq_of_lt (by omega : 32 + info.length < 2 ^ w)]
    rw [writeAt_first (by omega), Option.bind_some, writeAt_next ht (by rw [List.length_drop]; omega), Option.bind_some,
      ← List.append_assoc, writeAt_next (by rw [List.length_append, ht])
        (by simp only [List.length_drop, List.length_singleton]; omega), Option.bind_some,
      List.drop_eq_nil_of_le (by simp only [List.length_drop, List.length_singleton]; omega), List.append_nil,
      List.take_of_length_le (by simp only [List.length_append, List.length_singleton]; omega),
      hmac_none hw block (by simp only [List.length_append, List.length_singleton]; omega)]
  · cases h1 : writeAt (malloc w block ((32 + info.length + 1) % 2 ^ w)) 0 t with
    | none => rfl
    | some buf =>
      rw [Option.bind_some]
      cases h2 : writeAt buf 32 info with
      | none => rfl
      | some buf' =>
        exfalso
        rw [writeAt] at h2
        split_ifs at h2 with h3
        rw [writeAt_length h1, hm] at h3
        by_cases hj : 32 + info.length + 1 = 2 ^ w
        · rw [hj, Nat.mod_self] at h3; omega
        · have : (32 + info.length + 1) % 2 ^ w ≤ 32 + info.length + 1 - 2 ^ w := by
            rw [Nat.mod_eq_sub_mod (by omega)]; exact Nat.mod_le _ _
          have := Nat.pow_pos (n := w) (show 0 < 2 by decide)
          omega

theorem toWrite_eq {w L x : ℕ} (hL : L < 2 ^ w) (hx : x ≤ L) : (L + 2 ^ w - x) % 2 ^ w = L - x := by
  rw [show L + 2 ^ w - x = L - x + 2 ^ w by omega, Nat.add_mod_right, Nat.mod_eq_of_lt (by omega)]

theorem expandLoop_ok {w : ℕ} (hw : w ≤ 64) (block : ℕ → UInt8) {L : ℕ} (hL : L < 2 ^ w) (prk : List UInt8)
    {info : List UInt8} (okm : List UInt8) (h1 : info.length + 65 < 2 ^ w) (m : ℕ) (hi : m ≤ 1 ∨ info.length + 97 < 2 ^ w) : ∀ n ≤ m,
    expandLoop w block L prk info okm n = Hash.expandLoop L prk info okm n ∧
    ∀ t x o, Hash.expandLoop L prk info okm n = some (.ok (t, x, o)) → x ≤ L ∧ (n = 0 ∨ t.length = 32)
  | 0, _ => by
    refine ⟨rfl, fun t x o h => ?_⟩
    rw [Hash.expandLoop, Option.some.injEq, Except.ok.injEq, Prod.mk.injEq, Prod.mk.injEq] at h
    exact ⟨by omega, .inl rfl⟩
  | n + 1, hn => by
    obtain ⟨ih1, ih2⟩ := expandLoop_ok hw block hL prk okm h1 m hi n (by omega)
    rw [expandLoop, Hash.expandLoop, ih1]
    cases h : Hash.expandLoop L prk info okm n with
    | none => exact ⟨rfl, fun _ _ _ k => nomatch k⟩
    | some r =>
      cases r with
      | error e => exact ⟨rfl, fun _ _ _ k => nomatch k⟩
      | ok v =>
        obtain ⟨t, x, o⟩ := v
        obtain ⟨hx, ht⟩ := ih2 t x o h
        dsimp only
        rw [toWrite_eq hL hx]
        have e : (if n + 1 = 1 then
            (writeAt (malloc w block ((info.length + 1) % 2 ^ w)) 0 info).bind fun buf =>
            (writeAt buf info.length [UInt8.ofNat (n + 1)]).bind fun buf =>
            hmac w block (buf.take ((info.length + 1) % 2 ^ w)) prk
          else
            (writeAt (malloc w block ((32 + info.length + 1) % 2 ^ w)) 0 t).bind fun buf =>
            (writeAt buf 32 info).bind fun buf =>
            (writeAt buf ((32 + info.length) % 2 ^ w) [UInt8.ofNat (n + 1)]).bind fun buf =>
            hmac w block (buf.take ((32 + info.length + 1) % 2 ^ w)) prk) =
            some (if n + 1 = 1 then Hash.hmac (info ++ [UInt8.ofNat (n + 1)]) prk
              else Hash.hmac (t ++ info ++ [UInt8.ofNat (n + 1)]) prk) := by
          by_cases h0 : n + 1 = 1
          · rw [if_pos h0, if_pos h0, first_ok hw block _ prk h1]
          · rw [if_neg h0, if_neg h0, next_ok hw block (by omega) _ prk (by omega)]
        rw [e, Option.bind_some]
        have hl : (if n + 1 = 1 then Hash.hmac (info ++ [UInt8.ofNat (n + 1)]) prk
              else Hash.hmac (t ++ info ++ [UInt8.ofNat (n + 1)]) prk).length = 32 := by
          split_ifs <;> exact Malloc.hmac_length _ _
        generalize (if n + 1 = 1 then Hash.hmac (info ++ [UInt8.ofNat (n + 1)]) prk
              else Hash.hmac (t ++ info ++ [UInt8.ofNat (n + 1)]) prk) = t' at hl ⊢
        have hmin : (if L - x > 32 then 32 else L - x) = min 32 (L - x) := by split_ifs <;> omega
        rw [hmin]
        by_cases hz : min 32 (L - x) ≤ 0 ∨ min 32 (L - x) > 32
        · rw [if_pos hz, if_pos hz]; exact ⟨rfl, fun _ _ _ k => nomatch k⟩
        · rw [if_neg hz, if_neg hz, Nat.mod_eq_of_lt (by omega)]
          cases writeAt o x (t'.take (min 32 (L - x))) with
          | none => exact ⟨rfl, fun _ _ _ k => nomatch k⟩
          | some o' =>
            refine ⟨rfl, fun t2 x2 o2 k => ?_⟩
            rw [Option.some.injEq, Except.ok.injEq, Prod.mk.injEq, Prod.mk.injEq] at k
            rw [← k.1, ← k.2.1]
            exact ⟨by omega, .inr hl⟩

theorem expand_ok {w : ℕ} (hw13 : 13 ≤ w) (hw : w ≤ 64) (block : ℕ → UInt8) (okm prk : List UInt8) {info : List UInt8} {L : ℕ}
    (h : info.length + 65 < 2 ^ w) (h' : L ≤ 32 ∨ info.length + 97 < 2 ^ w) :
    expand w block okm L prk info = Hash.expand okm L prk info := by
  have h13 : 8192 ≤ 2 ^ w := by
    calc 8192 = 2 ^ 13 := rfl
      _ ≤ 2 ^ w := Nat.pow_le_pow_right (by decide) hw13
  rw [expand, Hash.expand]
  by_cases hL : L > 255 * 32
  · rw [if_pos hL, if_pos hL]
  · rw [if_neg hL, if_neg hL, Nat.mod_eq_of_lt (by omega : L + 32 - 1 < 2 ^ w)]
    dsimp only
    rw [(expandLoop_ok hw block (by omega) (prk.take 32) okm h ((L + 32 - 1) / 32) (by omega) _ le_rfl).1]
    rfl

theorem expandLoop_none {w : ℕ} (block : ℕ → UInt8) {L : ℕ} (prk info okm : List UInt8) {m : ℕ}
    (h : expandLoop w block L prk info okm m = none) : ∀ n, m ≤ n → expandLoop w block L prk info okm n = none
  | 0, hn => by obtain rfl : m = 0 := by omega
                exact h
  | n + 1, hn => by
    by_cases e : m = n + 1
    · rw [← e, h]
    · rw [expandLoop, expandLoop_none block prk info okm h n (by omega)]

theorem expand_none {w : ℕ} (hw13 : 13 ≤ w) (hw : w ≤ 64) (block : ℕ → UInt8) (okm prk : List UInt8)
    {info : List UInt8} {L : ℕ} (h1 : 1 ≤ L) (h2 : L ≤ 8160)
    (h : 2 ^ w ≤ info.length + 65 ∨ 32 < L ∧ 2 ^ w ≤ info.length + 97) :
    expand w block okm L prk info = none := by
  have h13 : 8192 ≤ 2 ^ w := by
    calc 8192 = 2 ^ 13 := rfl
      _ ≤ 2 ^ w := Nat.pow_le_pow_right (by decide) hw13
  have key : expandLoop w block L (prk.take 32) info okm ((L + 32 - 1) / 32) = none := by
    by_cases h3 : 2 ^ w ≤ info.length + 65
    · refine expandLoop_none block _ _ _ (m := 1) ?_ _ (by omega)
      rw [expandLoop, expandLoop]
      dsimp only
      rw [if_pos (by decide), first_none hw block _ _ h3]
      rfl
    · refine expandLoop_none block _ _ _ (m := 2) ?_ _ (by omega)
      obtain ⟨e, ht⟩ := expandLoop_ok hw block (by omega : L < 2 ^ w) (prk.take 32) okm (by omega : info.length + 65 < 2 ^ w) 1
        (.inl le_rfl) 1 le_rfl
      rw [expandLoop]
      rw [e]
      cases h4 : Hash.expandLoop L (prk.take 32) info okm 1 with
      | none => rfl
      | some r =>
        cases r with
        | error e =>
          exfalso
          rw [Hash.expandLoop, Hash.expandLoop] at h4
          dsimp only at h4
          have hmin : (if L - 0 > 32 then 32 else L - 0) = min 32 L := by split_ifs <;> omega
          rw [hmin, if_neg (by omega)] at h4
          cases h5 : writeAt okm 0 (List.take (min 32 L) (if 0 + 1 = 1 then Hash.hmac (info ++ [UInt8.ofNat (0 + 1)]) (prk.take 32)
            else Hash.hmac ([] ++ info ++ [UInt8.ofNat (0 + 1)]) (prk.take 32))) with
          | none => rw [h5] at h4; cases h4
          | some o => rw [h5] at h4; cases h4
        | ok v =>
          obtain ⟨t, x, o⟩ := v
          have := ht t x o h4
          dsimp only
          rw [if_neg (by decide), next_none hw block (by omega) _ _ (by omega)]
          rfl
  rw [expand, if_neg (by omega), Nat.mod_eq_of_lt (by omega : L + 32 - 1 < 2 ^ w)]
  dsimp only
  rw [if_neg (by omega), key]

theorem extractExpand_ok {w : ℕ} (hw13 : 13 ≤ w) (hw : w ≤ 64) (block : ℕ → UInt8) (out salt : List UInt8) {key info : List UInt8}
    (L : ℕ) (hk : key.length + 64 < 2 ^ w) (h : info.length + 97 < 2 ^ w) :
    extractExpand w block out L key salt info = Hash.extractExpand out L key salt info := by
  rw [extractExpand, hmac_ok hw block (by omega), Option.bind_some, expand_ok hw13 hw block _ _ (by omega) (.inr h)]
  rfl

theorem secretKeyLoop_ok {w : ℕ} (hw13 : 13 ≤ w) (hw : w ≤ 64) (block : ℕ → UInt8) {ikm : List UInt8}
    (hk : ikm.length + 64 < 2 ^ w) : ∀ fuel salt okm,
    secretKeyLoop w block ikm fuel salt okm = Keys.secretKeyLoop ikm fuel salt okm
  | 0, _, _ => rfl
  | fuel + 1, salt, okm => by
    have h13 : 8192 ≤ 2 ^ w := by
      calc 8192 = 2 ^ 13 := rfl
        _ ≤ 2 ^ w := Nat.pow_le_pow_right (by decide) hw13
    rw [secretKeyLoop, Keys.secretKeyLoop, extractExpand_ok hw13 hw block okm salt 48 hk
      (by simp only [List.length_cons, List.length_nil]; omega)]
    cases Hash.extractExpand okm 48 ikm salt [0, 48] with
    | none => rfl
    | some r =>
      obtain ⟨c, o⟩ := r
      rw [Option.bind_some]
      dsimp only
      cases Division.divnSafe (Scalar.fromBytesBE 6 o) FpC.Q with
      | none => rfl
      | some d =>
        obtain ⟨a, sk⟩ := d
        rw [Option.bind_some]
        dsimp only
        rw [secretKeyLoop_ok hw13 hw block hk fuel]

theorem seed_buffer {w : ℕ} (block : ℕ → UInt8) {seed : List UInt8} (h : seed.length + 1 < 2 ^ w) {β : Type}
    (f : List UInt8 → Option β) :
    ((writeAt (malloc w block ((seed.length + 1) % 2 ^ w)) 0 seed).bind fun ikm =>
      (writeAt ikm seed.length [0]).bind fun ikm => f (ikm.take ((seed.length + 1) % 2 ^ w))) = f (seed ++ [0]) := by
  have hm := malloc_length w block ((seed.length + 1) % 2 ^ w)
  rw [Nat.mod_mod, Nat.mod_eq_of_lt h] at hm
  rw [Nat.mod_eq_of_lt h, writeAt_first (by omega), Option.bind_some,
    writeAt_next rfl (by rw [List.length_drop, List.length_singleton]; omega),
    Option.bind_some, List.drop_eq_nil_of_le (by rw [List.length_drop, List.length_singleton]; omega), List.append_nil,
    List.take_of_length_le (by rw [List.length_append, List.length_singleton])]

theorem secretKey_ok {w : ℕ} (hw13 : 13 ≤ w) (hw : w ≤ 64) (block : ℕ → UInt8) (junk : List UInt8) (fuel : ℕ) {seed : List UInt8}
    (h : seed.length + 65 < 2 ^ w) : secretKey w block junk fuel seed = Keys.secretKey junk fuel seed := by
  rw [secretKey, Keys.secretKey]
  split_ifs with hs
  · rfl
  · rw [seed_buffer block (by omega) fun ikm => secretKeyLoop w block ikm fuel Keys.salt0 junk,
      secretKeyLoop_ok hw13 hw block (by rw [List.length_append, List.length_singleton]; omega)]

theorem secretKey_none {w : ℕ} (hw13 : 13 ≤ w) (hw : w ≤ 64) (block : ℕ → UInt8) (junk : List UInt8) (fuel : ℕ) {seed : List UInt8}
    (h : 2 ^ w ≤ seed.length + 65) : secretKey w block junk (fuel + 1) seed = none := by
  have h13 : 8192 ≤ 2 ^ w := by
    calc 8192 = 2 ^ 13 := rfl
      _ ≤ 2 ^ w := Nat.pow_le_pow_right (by decide) hw13
  rw [secretKey, if_neg (by omega)]
  by_cases h1 : seed.length + 1 < 2 ^ w
  · rw [seed_buffer block h1 fun ikm => secretKeyLoop w block ikm (fuel + 1) Keys.salt0 junk, secretKeyLoop, extractExpand,
      hmac_none hw block (by rw [List.length_append, List.length_singleton]; omega)]
    rfl
  · have hm := malloc_length w block ((seed.length + 1) % 2 ^ w)
    rw [Nat.mod_mod] at hm
    have hlt : (seed.length + 1) % 2 ^ w < seed.length + 1 :=
      lt_of_lt_of_le (Nat.mod_lt _ (Nat.pow_pos (by decide))) (by omega)
    cases h1 : writeAt (malloc w block ((seed.length + 1) % 2 ^ w)) 0 seed with
    | none => rfl
    | some buf =>
      rw [Option.bind_some, writeAt_short (by rw [writeAt_length h1, List.length_singleton]; omega)]
      rfl

theorem ikmToLamportSk_ok {w : ℕ} (hw13 : 13 ≤ w) (hw : w ≤ 64) (block : ℕ → UInt8) (out salt : List UInt8) {ikm : List UInt8}
    (h : ikm.length = 32) : ikmToLamportSk w block out ikm salt = Keys.ikmToLamportSk out ikm salt := by
  have h13 : 8192 ≤ 2 ^ w := by
    calc 8192 = 2 ^ 13 := rfl
      _ ≤ 2 ^ w := Nat.pow_le_pow_right (by decide) hw13
  have h0 : ([] : List UInt8).length + 97 < 2 ^ w := lt_of_lt_of_le (by decide) h13
  rw [ikmToLamportSk, Keys.ikmToLamportSk]
  generalize 32 * 255 = L
  rw [extractExpand_ok hw13 hw block _ _ _ (by omega) h0]

theorem deriveChildSk_ok {w : ℕ} (hw13 : 13 ≤ w) (hw : w ≤ 64) (block : ℕ → UInt8) (junk0 junk1 junk : List UInt8) (fuel : ℕ)
    {parent : List UInt64} (hp : parent.length = 4) (index : UInt32) :
    deriveChildSk w block junk0 junk1 junk fuel parent index = Keys.deriveChildSk junk0 junk1 junk fuel parent index := by
  have h13 : 8192 ≤ 2 ^ w := by
    calc 8192 = 2 ^ 13 := rfl
      _ ≤ 2 ^ w := Nat.pow_le_pow_right (by decide) hw13
  have hl : (Scalar.toBytesBE parent).length = 32 := by rw [Scalar.toBytesBE_length, hp]
  have hl' : ((Scalar.toBytesBE parent).map (· ^^^ 0xff)).length = 32 := by rw [List.length_map, hl]
  have e : parentSkToLamportPk w block junk0 junk1 parent index = Keys.parentSkToLamportPk junk0 junk1 parent index := by
    unfold parentSkToLamportPk Keys.parentSkToLamportPk
    simp only [ikmToLamportSk_ok hw13 hw block _ _ hl, ikmToLamportSk_ok hw13 hw block _ _ hl']
    generalize Keys.ikmToLamportSk junk0 _ _ = a
    generalize Keys.ikmToLamportSk junk1 _ _ = b
    cases a <;> cases b <;> rfl
  have hpk : ∀ pk, Keys.parentSkToLamportPk junk0 junk1 parent index = some pk → pk.length = 32 := by
    intro pk h
    unfold Keys.parentSkToLamportPk at h
    simp only [] at h
    generalize Keys.ikmToLamportSk junk0 _ _ = a at h
    generalize Keys.ikmToLamportSk junk1 _ _ = b at h
    cases a with
    | none => exact absurd h (by simp only [reduceCtorEq, not_false_eq_true])
    | some a =>
      cases b with
      | none => exact absurd h (by simp only [reduceCtorEq, not_false_eq_true])
      | some b =>
        simp only [Option.some.injEq] at h
        rw [← h, Sha256.hash_length]
  unfold deriveChildSk Keys.deriveChildSk
  rw [e]
  cases h : Keys.parentSkToLamportPk junk0 junk1 parent index with
  | none => rfl
  | some pk =>
    have := hpk pk h
    rw [Option.bind_some]
    exact secretKey_ok hw13 hw block _ _ (by omega)

/-! ## Weighted sums -/

theorem windowBits_eq {w n : ℕ} (hw : w ≤ 64) (h : n < 2 ^ w) : windowBits w n = Jac.windowBits n ∧ windowBits w n ≤ 23 := by
  have h64 : n < 2 ^ 64 := lt_of_lt_of_le h (Nat.pow_le_pow_right (by decide) hw)
  have e : windowBits w n = Jac.windowBits n := by
    rw [Jac.windowBits_size h64, windowBits]
    by_cases h0 : n < 32
    · rw [if_neg (by omega), if_pos h0]
    · rw [if_pos (by omega), if_neg h0, countlZero, if_neg (by omega)]
      have h1 : n.size = n.log2 + 1 :=
        le_antisymm (Nat.size_le.2 Nat.lt_log2_self) (Nat.lt_size.2 (Nat.log2_self_le (by omega)))
      have h2 : n.log2 < w := (Nat.log2_lt (by omega)).2 h
      rw [h1, show w - (w - 1 - n.log2) = n.log2 + 1 by omega]
  refine ⟨e, ?_⟩
  rw [e, Jac.windowBits_size h64]
  have : n.size ≤ 64 := Nat.size_le.2 h64
  split_ifs <;> omega

theorem weightedSumRun_eq {F : Type} [Ops F] {σ ε : Type} {w : ℕ} (hw : w ≤ 64) (points : List (Jac F)) (scalars : List (List UInt64))
    (yield : Jac.Yield σ ε) (s : σ) (h : min scalars.length points.length < 2 ^ w) :
    weightedSumRun w points scalars yield s = Jac.weightedSumRun points scalars yield s := by
  obtain ⟨e, hc⟩ := windowBits_eq hw h
  rw [weightedSumRun, Jac.weightedSumRun]
  dsimp only
  rw [if_neg (by omega), e]

end Bls.Platform
