import Verif.Model.Freed
import Verif.Spec.Freed
import Verif.Proof.Keys
import Verif.Proof.Malloc

/-! The blocks given back by key generation. -/

namespace Bls.Freed

open Bls Hash

theorem malloc_length (block : ℕ → ℕ → UInt8) (n : ℕ) (m : Mem) : (malloc block n m).1.length = n := by
  rw [malloc, List.length_map, List.length_range]

/-- Two pieces written into a block of their length. -/
theorem write_two {buf a b : List UInt8} (h : buf.length = a.length + b.length) :
    ((writeAt buf 0 a).bind fun x => writeAt x a.length b) = some (a ++ b) := by
  rw [Malloc.writeAt_zero (by omega), Option.bind_some, Malloc.writeAt_end rfl (by rw [List.length_drop]; omega)]

/-- Three pieces. -/
theorem write_three {buf a b c : List UInt8} (h : buf.length = a.length + b.length + c.length) :
    ((writeAt buf 0 a).bind fun x => (writeAt x a.length b).bind fun x => writeAt x (a.length + b.length) c) =
      some (a ++ b ++ c) := by
  rw [Malloc.writeAt_zero (by omega), Option.bind_some, Hash.writeAt_append rfl (by rw [List.length_drop]; omega), Option.bind_some,
    Malloc.writeAt_end (by rw [List.length_append]) (by simp only [List.length_drop]; omega)]

section
variable {H : List UInt8 → List UInt8} (hH : ∀ m, Fips.IsSha256 m (H m))
include hH

theorem hmac_run (block : ℕ → ℕ → UInt8) (text key : List UInt8) (m : Mem) :
    hmac block text key m = some (Rfc.hmac H key text, ⟨m.calls + 1, m.freed ++ [Residue.inner H key text]⟩) := by
  have hk : ∀ k : List UInt8, (if k.length > 64 then Sha256.hash [k] else k) = if k.length > 64 then H k else k := fun k => by
    rw [Hash.hash_sha hH, List.flatten_singleton]
  have e1 : (fun x : UInt8 => 0x5c ^^^ x) = (fun x => x ^^^ 0x5c) := funext fun x => UInt8.xor_comm _ _
  have e2 : (fun x : UInt8 => 0x36 ^^^ x) = (fun x => x ^^^ 0x36) := funext fun x => UInt8.xor_comm _ _
  have hlen : ∀ k : List UInt8, (if k.length > 64 then H k else k).length ≤ 64 := fun k => by
    split
    · rw [Hash.length_sha hH]; omega
    · omega
  unfold hmac Rfc.hmac Residue.inner Residue.pad
  simp only [hk, e1, e2]
  specialize hlen key
  generalize (if key.length > 64 then H key else key) = k at hlen
  have hl : (List.map (fun x : UInt8 => x ^^^ 0x36) (k ++ List.replicate (64 - k.length) 0)).length = 64 := by
    rw [List.length_map, List.length_append, List.length_replicate]; omega
  have hw := write_two (buf := (malloc block (64 + text.length) m).1) (a := List.map (fun x : UInt8 => x ^^^ 0x36)
    (k ++ List.replicate (64 - k.length) 0)) (b := text) (by rw [malloc_length, hl])
  rw [hl] at hw
  rw [show ∀ (o : Option (List UInt8)) (f : List UInt8 → List UInt8 × Mem), (o.bind fun ipad => (writeAt ipad 64 text).map f) =
    (o.bind fun ipad => writeAt ipad 64 text).map f from fun o f => by cases o <;> rfl, hw, Option.map_some]
  simp only [Hash.hash_sha hH, List.flatten_singleton]
  rfl

theorem pad_length (key : List UInt8) : (Residue.pad H key).length = 64 := by
  have hlen : (if key.length > 64 then H key else key).length ≤ 64 := by
    split
    · rw [Hash.length_sha hH]; omega
    · omega
  unfold Residue.pad
  generalize (if key.length > 64 then H key else key) = k at hlen
  simp only []
  rw [List.length_map, List.length_append, List.length_replicate]; omega

/-- The state of the loop after `n + 1` iterations. -/
theorem expandLoop_run (block : ℕ → ℕ → UInt8) (L : ℕ) (prk info okm t b1 b2 : List UInt8) (hok : L ≤ okm.length)
    (h1 : b1.length = info.length + 1) (h2 : b2.length = 32 + info.length + 1) (m : Mem) : ∀ n, 32 * n < L →
    expandLoop block L prk info ⟨t, 0, okm, b1, b2⟩ m (n + 1) = some (.ok ⟨Rfc.T H prk info (n + 1), min (32 * (n + 1)) L,
      (blocks (fun i => Rfc.T H prk info (i + 1)) (n + 1)).take L ++ okm.drop (min (32 * (n + 1)) L),
      Residue.message H prk info 1, if n + 1 = 1 then b2 else Residue.message H prk info (n + 1)⟩,
      ⟨m.calls + (n + 1), m.freed ++ (List.range (n + 1)).map fun i => Residue.inner H prk (Residue.message H prk info (i + 1))⟩)
  | 0, h => by
    have hw := write_two (buf := b1) (a := info) (b := [UInt8.ofNat 1]) (by rw [h1]; rfl)
    have hb := Malloc.write_block (fun i => Rfc.T H prk info (i + 1)) (fun i => T_length hH prk info i) okm hok (n := 0) h
    rw [expandLoop, expandLoop]
    simp only [Nat.zero_add, if_true]
    obtain ⟨x, hx, hx2⟩ := Option.bind_eq_some_iff.1 hw
    rw [hx, Option.bind_some, hx2, Option.bind_some, List.take_of_length_le (by rw [List.length_append]; rfl),
      hmac_run hH, Option.map_some, Option.bind_some]
    have ht : Rfc.hmac H prk (info ++ [UInt8.ofNat 1]) = Rfc.T H prk info 1 := by rw [Rfc.T, Rfc.T, List.nil_append]
    have hm : Residue.message H prk info 1 = info ++ [UInt8.ofNat 1] := by rw [Residue.message, Rfc.T, List.nil_append]
    simp only [ht, hm]
    rw [if_neg (by split <;> omega)]
    rw [show Hash.blocks (fun i => Rfc.T H prk info (i + 1)) 0 = [] from rfl, List.take_nil, List.nil_append] at hb
    simp only [Nat.mul_zero, Nat.zero_min, List.drop_zero, Nat.zero_add, Nat.mul_one] at hb
    rw [hb, Option.map_some]
    have hwr : 0 + (if L - 0 > 32 then 32 else L - 0) = min (32 * 1) L := by split <;> omega
    rw [hwr]
    rfl
  | n + 1, h => by
    have hw := write_three (buf := if n + 1 = 1 then b2 else Residue.message H prk info (n + 1)) (a := Rfc.T H prk info (n + 1))
      (b := info) (c := [UInt8.ofNat (n + 1 + 1)]) (by
        rw [T_length hH]
        split
        · rw [h2]; rfl
        · rename_i h0
          obtain ⟨k, rfl⟩ : ∃ k, n = k + 1 := ⟨n - 1, by omega⟩
          rw [Residue.message, show k + 1 + 1 - 1 = k + 1 from rfl, List.length_append, List.length_append, T_length hH]; rfl)
    rw [T_length hH] at hw
    have hb := Malloc.write_block (fun i => Rfc.T H prk info (i + 1)) (fun i => T_length hH prk info i) okm hok (n := n + 1) h
    rw [expandLoop, expandLoop_run block L prk info okm t b1 b2 hok h1 h2 m n (by omega)]
    have hm : Residue.message H prk info (n + 1 + 1) = Rfc.T H prk info (n + 1) ++ info ++ [UInt8.ofNat (n + 1 + 1)] := by
      rw [Residue.message, show n + 1 + 1 - 1 = n + 1 from rfl]
    have ht : Rfc.hmac H prk (Rfc.T H prk info (n + 1) ++ info ++ [UInt8.ofNat (n + 1 + 1)]) = Rfc.T H prk info (n + 1 + 1) := rfl
    simp only []
    rw [if_neg (show ¬ n + 1 + 1 = 1 by omega), if_neg (show ¬ n + 1 + 1 = 1 by omega)]
    obtain ⟨x, hx, hx2⟩ := Option.bind_eq_some_iff.1 hw
    obtain ⟨y, hy, hy2⟩ := Option.bind_eq_some_iff.1 hx2
    rw [hx, Option.bind_some, hy, Option.bind_some, hy2, Option.bind_some,
      List.take_of_length_le (l := Rfc.T H prk info (n + 1) ++ info ++ [UInt8.ofNat (n + 1 + 1)])
        (by rw [List.length_append, List.length_append, T_length hH]; rfl),
      hmac_run hH, Option.map_some, Option.bind_some]
    simp only [ht]
    rw [if_neg (by split <;> omega), hb, Option.map_some]
    have hwr : min (32 * (n + 1)) L + (if L - min (32 * (n + 1)) L > 32 then 32 else L - min (32 * (n + 1)) L) =
        min (32 * (n + 1 + 1)) L := by split <;> omega
    rw [hwr, hm, List.range_succ (n := n + 1), List.map_append, ← List.append_assoc]
    simp only [List.map_cons, List.map_nil, hm]
    rfl

theorem expand_run (block : ℕ → ℕ → UInt8) (t okm prk info : List UInt8) (L : ℕ) (hprk : prk.length = 32) (hL : 1 ≤ L)
    (hL' : L ≤ 8160) (hok : L ≤ okm.length) (m : Mem) : expand block t okm L prk info m =
      some ((0, Rfc.expand H prk info L ++ okm.drop L), ⟨m.calls + 2 + (L + 31) / 32,
        m.freed ++ Residue.expansion H prk info L ((List.range (32 + info.length + 1)).map (block (m.calls + 1)))⟩) := by
  obtain ⟨n, hn⟩ : ∃ n, (L + 32 - 1) / 32 = n + 1 := ⟨(L + 32 - 1) / 32 - 1, by omega⟩
  have hn' : (L + 31) / 32 = n + 1 := by omega
  rw [expand, if_neg (by omega)]
  simp only [hn]
  rw [if_neg (by omega), List.take_of_length_le hprk.le, expandLoop_run hH block L prk info okm t _ _ hok (malloc_length _ _ _)
    (malloc_length _ _ _) _ n (by omega)]
  have hw : min (32 * (n + 1)) L = L := by omega
  simp only [hw, ne_eq, not_true_eq_false, if_false]
  rw [Residue.expansion, Rfc.expand, hn', Hash.blocks]
  simp only [free, malloc, List.append_assoc, List.cons_append, List.nil_append]

theorem extractExpand_run (block : ℕ → ℕ → UInt8) (t out key salt info : List UInt8) (L : ℕ) (hL : 1 ≤ L)
    (hL' : L ≤ 8160) (hok : out.length = L) (m : Mem) : extractExpand block t out L key salt info m =
      some ((0, Rfc.expand H (Rfc.extract H salt key) info L), ⟨m.calls + 3 + (L + 31) / 32,
        m.freed ++ Residue.hkdf H key salt info L ((List.range (32 + info.length + 1)).map (block (m.calls + 2)))⟩) := by
  rw [extractExpand, hmac_run hH, Option.bind_some, expand_run hH block t out _ info L (Hash.hmac_length hH _ _) hL hL' hok.ge,
    ← hok, List.drop_length, List.append_nil, Residue.hkdf, Rfc.extract]
  simp only [List.append_assoc, List.cons_append, List.nil_append]

omit hH in
/-- With at least two messages the first content of the second block does not matter. -/
theorem hkdf_rest (key salt info : List UInt8) (L : ℕ) (hL : 33 ≤ L) (rest : List UInt8) :
    Residue.hkdf H key salt info L rest = Residue.hkdf H key salt info L [] := by
  rw [Residue.hkdf, Residue.hkdf, Residue.expansion, Residue.expansion, if_neg (by omega), if_neg (by omega)]

omit hH in
theorem hkdf_length (key salt info : List UInt8) (L : ℕ) (rest : List UInt8) :
    (Residue.hkdf H key salt info L rest).length = (L + 31) / 32 + 3 := by
  rw [Residue.hkdf, List.length_cons, Residue.expansion, List.length_append, List.length_map, List.length_range]; rfl

/-- The blocks of `n` attempts. -/
def attempts (H : List UInt8 → List UInt8) (ikm salt : List UInt8) (n : ℕ) : List (List UInt8) :=
  (List.range n).flatMap fun j => Residue.hkdf H ikm (H^[j] salt) [0, 48] 48 []

omit hH in
theorem attempts_succ (ikm salt : List UInt8) (n : ℕ) :
    attempts H ikm salt (n + 1) = Residue.hkdf H ikm salt [0, 48] 48 [] ++ attempts H ikm (H salt) n := by
  rw [attempts, attempts, List.range_succ_eq_map, List.flatMap_cons, List.flatMap_map]
  rfl

theorem secretKeyLoop_run (block : ℕ → ℕ → UInt8) (t ikm : List UInt8) : ∀ (fuel : ℕ) (salt okm : List UInt8) (m : Mem),
    okm.length = 48 → ∃ n r, n ≤ fuel ∧ secretKeyLoop block t ikm fuel salt okm m = some (r, ⟨m.calls + 5 * n, m.freed ++
      attempts H ikm salt n⟩) ∧ Keys.secretKeyLoop ikm fuel salt okm = some r ∧ (r = none → n = fuel) ∧
      ∀ sk, r = some sk → 1 ≤ n ∧ sk.length = 4 ∧ (∀ j < n - 1, beVal (Keys.cand (H := H) ikm (H^[j] salt)) % q = 0) ∧
        beVal (Keys.cand (H := H) ikm (H^[n - 1] salt)) % q = wordsVal sk ∧ wordsVal sk ≠ 0
  | 0, salt, okm, m, _ => ⟨0, none, le_refl _, by simp [secretKeyLoop, attempts], rfl, fun _ => rfl, by simp⟩
  | fuel + 1, salt, okm, m, hok => by
    have hl : (Keys.cand (H := H) ikm salt).length = 48 := Keys.expand_length hH _ _ _
    obtain ⟨c, d, h1, h2, h3⟩ := Keys.divQ (Scalar.fromBytesBE 6 (Keys.cand (H := H) ikm salt))
      (by rw [Scalar.fromBytesBE_length]; norm_num)
    rw [Scalar.fromBytesBE_val 6 _ (by rw [hl])] at h3
    have eK : Keys.secretKeyLoop ikm (fuel + 1) salt okm = if !Scalar.equal d [0, 0, 0, 0] then some (some d)
        else Keys.secretKeyLoop ikm fuel (Sha256.hash [salt]) (Keys.cand (H := H) ikm salt) := by
      rw [Keys.secretKeyLoop, Keys.extractExpand_eq hH okm ikm salt [0, 48] 48 (by norm_num) (by norm_num) hok]
      change (match Division.divnSafe (Scalar.fromBytesBE 6 (Keys.cand (H := H) ikm salt)) FpC.Q with
        | none => none
        | some (_, sk) => _) = _
      rw [h1]; rfl
    have e : secretKeyLoop block t ikm (fuel + 1) salt okm m = if !Scalar.equal d [0, 0, 0, 0] then
          some (some d, ⟨m.calls + 5, m.freed ++ Residue.hkdf H ikm salt [0, 48] 48 []⟩)
        else secretKeyLoop block t ikm fuel (H salt) (Keys.cand (H := H) ikm salt)
          ⟨m.calls + 5, m.freed ++ Residue.hkdf H ikm salt [0, 48] 48 []⟩ := by
      rw [secretKeyLoop, extractExpand_run hH block t okm ikm salt [0, 48] 48 (by norm_num) (by norm_num) hok, Option.bind_some,
        hkdf_rest _ _ _ _ (by norm_num)]
      change (Option.bind (Division.divnSafe (Scalar.fromBytesBE 6 (Keys.cand (H := H) ikm salt)) FpC.Q) _) = _
      rw [h1, Option.bind_some, Hash.hash_sha hH, List.flatten_singleton]
      rfl
    rw [eK, e]
    by_cases h0 : wordsVal d = 0
    · rw [(Keys.equal_zero h2).2 h0]
      obtain ⟨n, r, a1, a2, a3, a4, a5⟩ := secretKeyLoop_run block t ikm fuel (H salt) (Keys.cand (H := H) ikm salt)
        ⟨m.calls + 5, m.freed ++ Residue.hkdf H ikm salt [0, 48] 48 []⟩ hl
      refine ⟨n + 1, r, by omega, ?_, ?_, fun h => by rw [a4 h], fun sk h => ?_⟩
      · simp only [Bool.not_true, Bool.false_eq_true, if_false]
        rw [a2, attempts_succ, List.append_assoc, show m.calls + 5 + 5 * n = m.calls + 5 * (n + 1) by ring]
      · simp only [Bool.not_true, Bool.false_eq_true, if_false]
        rw [Hash.hash_sha hH, List.flatten_singleton]
        exact a3
      · obtain ⟨b1, b2, b3, b4, b5⟩ := a5 sk h
        refine ⟨by omega, b2, ?_, ?_, b5⟩
        · rintro (_ | j) hj
          · rw [Function.iterate_zero_apply, ← h3, h0]
          · rw [Function.iterate_succ_apply]; exact b3 j (by omega)
        · obtain ⟨k, rfl⟩ : ∃ k, n = k + 1 := ⟨n - 1, by omega⟩
          rw [show k + 1 + 1 - 1 = k + 1 from rfl, Function.iterate_succ_apply]
          exact b4
    · have hne : Scalar.equal d [0, 0, 0, 0] = false := by
        rw [Bool.eq_false_iff]; intro h; exact h0 ((Keys.equal_zero h2).1 h)
      rw [hne]
      refine ⟨1, some d, by omega, ?_, rfl, by simp, fun sk h => ?_⟩
      · simp [attempts]
      · obtain rfl := Option.some.inj h
        exact ⟨le_refl _, h2, fun j hj => absurd hj (by omega), h3.symm, h0⟩

omit hH in
theorem keyGen_eq (seed : List UInt8) (n : ℕ) :
    Residue.keyGen H seed n = attempts H (seed ++ [0]) Keys.salt0 (n + 1) ++ [seed ++ [0]] := by
  rw [Residue.keyGen, attempts]
  simp only [Keys.salt_iterate]
  rfl

theorem secretKey_run (block : ℕ → ℕ → UInt8) (t junk : List UInt8) (hj : junk.length = 48) (fuel : ℕ) (seed : List UInt8)
    (hs : 32 ≤ seed.length) (m : Mem) : ∃ r m', secretKey block t junk fuel seed m = some (r, m') ∧
      Keys.secretKey junk fuel seed = some r ∧ ∀ sk, r = some sk → ∃ n < fuel, (∀ j < n, KeyGen.candidate H seed j = 0) ∧
        KeyGen.candidate H seed n = wordsVal sk ∧ wordsVal sk ≠ 0 ∧ sk.length = 4 ∧
        m'.freed = m.freed ++ Residue.keyGen H seed n := by
  have hw := write_two (buf := (malloc block (seed.length + 1) m).1) (a := seed) (b := [0]) (by rw [malloc_length]; rfl)
  obtain ⟨x, hx, hx2⟩ := Option.bind_eq_some_iff.1 hw
  obtain ⟨n, r, a1, a2, a3, a4, a5⟩ := secretKeyLoop_run hH block t (seed ++ [0]) fuel Keys.salt0 junk (malloc block (seed.length + 1) m).2 hj
  have e : secretKey block t junk fuel seed m = (secretKeyLoop block t (seed ++ [0]) fuel Keys.salt0 junk
      (malloc block (seed.length + 1) m).2).map fun x => match x.1 with
        | none => (none, x.2)
        | some sk => (some sk, free (seed ++ [0]) x.2) := by
    rw [secretKey, if_neg (by omega)]
    simp only []
    rw [hx, Option.bind_some, hx2, Option.bind_some, List.take_of_length_le (by rw [List.length_append]; rfl)]
    generalize secretKeyLoop block t (seed ++ [0]) fuel Keys.salt0 junk (malloc block (seed.length + 1) m).2 = o
    cases o with
    | none => rfl
    | some o => obtain ⟨_ | _, _⟩ := o <;> rfl
  rw [a2, Option.map_some] at e
  have eK : Keys.secretKey junk fuel seed = some r := by rw [Keys.secretKey, if_neg (by omega), a3]
  cases r with
  | none => exact ⟨none, _, e, eK, by simp⟩
  | some sk =>
    refine ⟨some sk, _, e, eK, fun sk' h => ?_⟩
    obtain rfl := Option.some.inj h
    obtain ⟨b1, b2, b3, b4, b5⟩ := a5 _ rfl
    obtain ⟨k, rfl⟩ : ∃ k, n = k + 1 := ⟨n - 1, by omega⟩
    refine ⟨k, by omega, fun j hj => ?_, ?_, b5, b2, ?_⟩
    · rw [Keys.candidate_eq]; exact b3 j hj
    · rw [Keys.candidate_eq]; exact b4
    · rw [keyGen_eq, free, ← List.append_assoc]; rfl

theorem ikm_run (block : ℕ → ℕ → UInt8) (t out ikm salt : List UInt8) (ho : out.length = 8160) (m : Mem) :
    ikmToLamportSk block t out ikm salt m = some (Rfc.expand H (Rfc.extract H salt ikm) [] 8160,
      ⟨m.calls + 258, m.freed ++ Residue.hkdf H ikm salt [] 8160 []⟩) := by
  rw [ikmToLamportSk, show 32 * 255 = 8160 from by norm_num, extractExpand_run hH block t out ikm salt [] 8160 (by norm_num)
    (le_refl _) ho, Option.map_some, hkdf_rest _ _ _ _ (by norm_num)]

theorem lamport_run (block : ℕ → ℕ → UInt8) (t junk0 junk1 : List UInt8) (h0 : junk0.length = 8160) (h1 : junk1.length = 8160)
    (sk : List UInt64) (hs : sk.length = 4) (i : UInt32) (m : Mem) : parentSkToLamportPk block t junk0 junk1 sk i m =
      some (KeyGen.lamportPk H (wordsVal sk) i.toNat, ⟨m.calls + 258 + 258, m.freed ++
        Residue.hkdf H (Fips.be 32 (wordsVal sk)) (Fips.be 4 i.toNat) [] 8160 [] ++
        Residue.hkdf H ((Fips.be 32 (wordsVal sk)).map (255 - ·)) (Fips.be 4 i.toNat) [] 8160 []⟩) := by
  unfold parentSkToLamportPk
  simp only [ikm_run hH _ _ _ _ _ h0, ikm_run hH _ _ _ _ _ h1, Option.bind_some, Option.map_some]
  rw [Hash.hash_sha hH, List.flatten_singleton, Keys.hashPieces_eq hH, Keys.hashPieces_eq hH, KeyGen.lamportPk,
    Keys.indexBytes_eq, Keys.toBytesBE_eq_be, hs]
  dsimp only [KeyGen.lamportSk]
  rw [show (fun x : UInt8 => x ^^^ 255) = (255 - ·) from funext Keys.flip_eq]

theorem child_run (block : ℕ → ℕ → UInt8) (t junk0 junk1 junk : List UInt8) (h0 : junk0.length = 8160) (h1 : junk1.length = 8160)
    (hj : junk.length = 48) (fuel : ℕ) (parent : List UInt64) (hp : parent.length = 4) (i : UInt32) (m : Mem) :
    ∃ r m', deriveChildSk block t junk0 junk1 junk fuel parent i m = some (r, m') ∧
      Keys.deriveChildSk junk0 junk1 junk fuel parent i = some r ∧ ∀ sk, r = some sk → ∃ n < fuel,
        (∀ j < n, KeyGen.candidate H (KeyGen.lamportPk H (wordsVal parent) i.toNat) j = 0) ∧
        KeyGen.candidate H (KeyGen.lamportPk H (wordsVal parent) i.toNat) n = wordsVal sk ∧ wordsVal sk ≠ 0 ∧ sk.length = 4 ∧
        m'.freed = m.freed ++ Residue.child H (wordsVal parent) i.toNat n := by
  have eK : Keys.deriveChildSk junk0 junk1 junk fuel parent i =
      Keys.secretKey junk fuel (KeyGen.lamportPk H (wordsVal parent) i.toNat) := by
    have := Keys.lamport_eq hH junk0 junk1 h0 h1 parent hp i
    generalize KeyGen.lamportPk H (wordsVal parent) i.toNat = pk at this
    unfold Keys.deriveChildSk
    simp only [this]
  have el := lamport_run hH block t junk0 junk1 h0 h1 parent hp i m
  have hlen := Keys.lamportPk_length hH (wordsVal parent) i.toNat
  unfold deriveChildSk
  rw [el, Option.bind_some, eK]
  unfold Residue.child
  generalize KeyGen.lamportPk H (wordsVal parent) i.toNat = pk at hlen
  simp only []
  rw [Malloc.writeAt_zero (malloc_length _ _ _).ge, Option.bind_some, List.drop_of_length_le (malloc_length _ _ _).le, List.append_nil]
  obtain ⟨r, m', a1, a2, a3⟩ := secretKey_run hH block t junk hj fuel pk hlen.ge (malloc block pk.length ⟨m.calls + 258 + 258, m.freed ++
        Residue.hkdf H (Fips.be 32 (wordsVal parent)) (Fips.be 4 i.toNat) [] 8160 [] ++
        Residue.hkdf H ((Fips.be 32 (wordsVal parent)).map (255 - ·)) (Fips.be 4 i.toNat) [] 8160 []⟩).2
  rw [a1, Option.map_some]
  cases r with
  | none => exact ⟨none, m', rfl, a2, by simp⟩
  | some sk =>
    refine ⟨some sk, free pk m', rfl, a2, fun sk' h => ?_⟩
    obtain rfl := Option.some.inj h
    obtain ⟨n, c1, c2, c3, c4, c5, c6⟩ := a3 _ rfl
    refine ⟨n, c1, c2, c3, c4, c5, ?_⟩
    rw [free]
    simp only []
    rw [c6, malloc]
    simp only [List.append_assoc]

end

end Bls.Freed
