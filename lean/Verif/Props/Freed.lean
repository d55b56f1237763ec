import Verif.Proof.Freed
import Verif.Props.Keys

/-!
# C97: what key generation leaves behind in memory

`Freed.Mem` holds the contents of the blocks given back so far; nothing erases them. `block` is the content of new blocks, `t`,
`junk`, `junk0`, `junk1` that of arrays which C++ leaves uninitialised. All allocations succeed here; C80 is about failing ones.
-/

namespace Bls.Props
open Bls Freed

section
variable {H : List UInt8 → List UInt8} (hH : ∀ m, Fips.IsSha256 m (H m))

section
include hH

/-- C97: `hkdf256_hmac` gives one block back, with the padded key and the whole text in it. A key of 32 bytes can be read off. -/
theorem C97_hmac (block : ℕ → ℕ → UInt8) (text key : List UInt8) (m : Mem) :
    (∃ c, hmac block text key m = some (Rfc.hmac H key text, ⟨c, m.freed ++ [Residue.inner H key text]⟩)) ∧
    (Residue.inner H key text).drop 64 = text ∧
    (key.length = 32 → ((Residue.inner H key text).take 32).map (· ^^^ 0x36) = key) := by
  refine ⟨⟨_, hmac_run hH block text key m⟩, ?_, fun hk => ?_⟩
  · rw [Residue.inner, List.drop_left' (pad_length hH key)]
  · rw [Residue.inner, Residue.pad, if_neg (by omega), List.map_append, List.append_assoc, List.take_left' (by rw [List.length_map, hk]), List.map_map]
    exact (List.map_congr_left fun x _ => by
      rw [Function.comp_apply, UInt8.xor_assoc, UInt8.xor_self, UInt8.xor_zero]; rfl).trans (List.map_id key)

/-- C97: `hkdf256_expand` gives back one block for every HMAC and its two buffers; in every block of an HMAC stands the key. -/
theorem C97_expand (block : ℕ → ℕ → UInt8) (t okm prk info : List UInt8) (L : ℕ) (hprk : prk.length = 32) (hL : 1 ≤ L)
    (hL' : L ≤ 8160) (hok : L ≤ okm.length) (m : Mem) : ∃ c rest,
    expand block t okm L prk info m =
      some ((0, Rfc.expand H prk info L ++ okm.drop L), ⟨c, m.freed ++ Residue.expansion H prk info L rest⟩) ∧
    (Residue.expansion H prk info L rest).length = (L + 31) / 32 + 2 ∧
    ∀ i < (L + 31) / 32, ∃ b, (Residue.expansion H prk info L rest)[i]? = some b ∧ (b.take 32).map (· ^^^ 0x36) = prk := by
  refine ⟨_, _, expand_run hH block t okm prk info L hprk hL hL' hok m, ?_, fun i hi =>
    ⟨Residue.inner H prk (Residue.message H prk info (i + 1)), ?_, (C97_hmac hH block _ prk m).2.2 hprk⟩⟩
  · rw [Residue.expansion, List.length_append, List.length_map, List.length_range]; rfl
  · rw [Residue.expansion, List.getElem?_append_left (by rw [List.length_map, List.length_range]; exact hi), List.getElem?_map,
      List.getElem?_range hi, Option.map_some]

/-- C97: `secret_key` returns the key of C38, and the blocks it has given back are exactly those of the attempts and, last, the
seed with a zero byte behind it. -/
theorem C97_secretKey (block : ℕ → ℕ → UInt8) (t junk : List UInt8) (hj : junk.length = 48) (fuel : ℕ) (seed : List UInt8)
    (hs : 32 ≤ seed.length) (m : Mem) : ∃ r m', secretKey block t junk fuel seed m = some (r, m') ∧
    Keys.secretKey junk fuel seed = some r ∧
    ∀ sk, r = some sk → ∃ n, (∀ j < n, KeyGen.candidate H seed j = 0) ∧ KeyGen.candidate H seed n ≠ 0 ∧
      m'.freed = m.freed ++ Residue.keyGen H seed n ∧ m'.freed.getLast? = some (seed ++ [0]) := by
  obtain ⟨r, m', a1, a2, a3⟩ := secretKey_run hH block t junk hj fuel seed hs m
  refine ⟨r, m', a1, a2, fun sk h => ?_⟩
  obtain ⟨n, _, b2, b3, b4, _, b6⟩ := a3 sk h
  refine ⟨n, b2, by rw [b3]; exact b4, b6, ?_⟩
  rw [b6, keyGen_eq, ← List.append_assoc, List.getLast?_concat]

/-- C97: who reads the last block given back calculates the key from it, whatever the memory contained before. -/
theorem C97_secretKey_readable (block : ℕ → ℕ → UInt8) (t junk junk' : List UInt8) (hj : junk.length = 48) (fuel : ℕ)
    (seed : List UInt8) (hs : 32 ≤ seed.length) (m m' : Mem) (sk : List UInt64) (hj' : junk'.length = 48)
    (h : secretKey block t junk fuel seed m = some (some sk, m')) :
    ∃ b, m'.freed.getLast? = some b ∧ Keys.secretKey junk' fuel b.dropLast = some (some sk) := by
  obtain ⟨r, m1, a1, a2, a3⟩ := C97_secretKey hH block t junk hj fuel seed hs m
  rw [a1, Option.some.injEq, Prod.mk.injEq] at h
  obtain ⟨rfl, rfl⟩ := h
  obtain ⟨n, _, _, _, b⟩ := a3 sk rfl
  refine ⟨_, b, ?_⟩
  rw [List.dropLast_concat]
  obtain ⟨r1, c1, c2⟩ := Keys.secretKey_iff hH junk hj fuel seed hs
  obtain ⟨r2, d1, d2⟩ := Keys.secretKey_iff hH junk' hj' fuel seed hs
  rw [c1] at a2
  rw [d1, (d2 sk).2 ((c2 sk).1 (Option.some.inj a2))]

/-- C97: different seeds leave different blocks behind. -/
theorem C97_seed_determined (block block' : ℕ → ℕ → UInt8) (t t' junk junk' : List UInt8) (hj : junk.length = 48)
    (hj' : junk'.length = 48) (fuel fuel' : ℕ) (seed seed' : List UInt8) (hs : 32 ≤ seed.length) (hs' : 32 ≤ seed'.length)
    (m m' n n' : Mem) (sk sk' : List UInt64) (h : secretKey block t junk fuel seed m = some (some sk, m'))
    (h' : secretKey block' t' junk' fuel' seed' n = some (some sk', n')) (he : m'.freed = n'.freed) : seed = seed' := by
  obtain ⟨r, m1, a1, a2, a3⟩ := C97_secretKey hH block t junk hj fuel seed hs m
  obtain ⟨r', m1', a1', a2', a3'⟩ := C97_secretKey hH block' t' junk' hj' fuel' seed' hs' n
  rw [a1, Option.some.injEq, Prod.mk.injEq] at h
  rw [a1', Option.some.injEq, Prod.mk.injEq] at h'
  obtain ⟨rfl, rfl⟩ := h
  obtain ⟨rfl, rfl⟩ := h'
  obtain ⟨_, _, _, _, b⟩ := a3 sk rfl
  obtain ⟨_, _, _, _, b'⟩ := a3' sk' rfl
  rw [he, b', Option.some.injEq] at b
  exact (List.append_inj_left' b rfl).symm

/-- C97: `derive_child_sk` returns the key of C38, and the blocks it has given back are exactly those of the two Lamport keys, of
the key generation, and its seed. The parent key itself stands at the end of the first of them, its complement at the end of the
first one of the second Lamport key, and from the last one the child key can be calculated. -/
theorem C97_deriveChildSk (block : ℕ → ℕ → UInt8) (t junk0 junk1 junk : List UInt8) (h0 : junk0.length = 8160)
    (h1 : junk1.length = 8160) (hj : junk.length = 48) (fuel : ℕ) (parent : List UInt64) (hp : parent.length = 4) (index : UInt32)
    (m : Mem) : ∃ r m', deriveChildSk block t junk0 junk1 junk fuel parent index m = some (r, m') ∧
    Keys.deriveChildSk junk0 junk1 junk fuel parent index = some r ∧
    ∀ sk, r = some sk → ∃ n, m'.freed = m.freed ++ Residue.child H (wordsVal parent) index.toNat n ∧
      (∃ b, m'.freed[m.freed.length]? = some b ∧ b.drop 64 = Keys.skToBytes parent) ∧
      (∃ b, m'.freed[m.freed.length + 258]? = some b ∧ (b.drop 64).map (255 - ·) = Keys.skToBytes parent) ∧
      ∃ b, m'.freed.getLast? = some b ∧ Keys.secretKey junk fuel b = some (some sk) := by
  obtain ⟨r, m', a1, a2, a3⟩ := child_run hH block t junk0 junk1 junk h0 h1 hj fuel parent hp index m
  refine ⟨r, m', a1, a2, fun sk h => ?_⟩
  obtain ⟨n, hn, b2, b3, b4, b5, b6⟩ := a3 sk h
  have hb : Keys.skToBytes parent = Fips.be 32 (wordsVal parent) := by rw [Keys.skToBytes, Keys.toBytesBE_eq_be, hp]
  have hlen := Keys.lamportPk_length hH (wordsVal parent) index.toNat
  unfold Residue.child at b6
  refine ⟨n, b6, ?_, ?_, ?_⟩
  all_goals
    rw [b6]
    generalize KeyGen.lamportPk H (wordsVal parent) index.toNat = pk at *
  · refine ⟨Residue.inner H (Fips.be 4 index.toNat) (Fips.be 32 (wordsVal parent)), ?_, ?_⟩
    · rw [List.getElem?_append_right (le_refl _), Nat.sub_self]
      rfl
    · rw [hb, Residue.inner, List.drop_left' (pad_length hH _)]
  · refine ⟨Residue.inner H (Fips.be 4 index.toNat) ((Fips.be 32 (wordsVal parent)).map (255 - ·)), ?_, ?_⟩
    · have hl := hkdf_length (H := H) (Fips.be 32 (wordsVal parent)) (Fips.be 4 index.toNat) [] 8160 []
      rw [List.getElem?_append_right (by omega), show m.freed.length + 258 - m.freed.length = 258 by omega]
      generalize Residue.hkdf H (Fips.be 32 (wordsVal parent)) (Fips.be 4 index.toNat) [] 8160 [] = X at hl
      rw [List.append_assoc, List.append_assoc, List.getElem?_append_right (by rw [hl]), hl]
      rfl
    · rw [hb, Residue.inner, List.drop_left' (pad_length hH _), List.map_map]
      exact (List.map_congr_left fun x _ => by
        rw [Function.comp_apply, ← Keys.flip_eq, ← Keys.flip_eq, UInt8.xor_assoc, UInt8.xor_self, UInt8.xor_zero]; rfl).trans
        (List.map_id _)
  · refine ⟨pk, by rw [← List.append_assoc, List.getLast?_concat], ?_⟩
    obtain ⟨r1, c1, c2⟩ := Keys.secretKey_iff hH junk hj fuel pk hlen.ge
    rw [c1, (c2 sk).2 ⟨b5, n, hn, b2, b3, b4⟩]

end

/-- C97: a seed of fewer than 32 bytes is not copied. -/
theorem C97_short_seed (block : ℕ → ℕ → UInt8) (t junk : List UInt8) (fuel : ℕ) (seed : List UInt8) (hs : seed.length < 32)
    (m : Mem) : secretKey block t junk fuel seed m = some (some [0, 0, 0, 0], m) := by
  rw [secretKey, if_pos hs]

end

example : (List.replicate 31 (7 : UInt8)).length < 32 ∧ 32 ≤ (List.replicate 32 (7 : UInt8)).length := by decide

/-- Memory filled with `0x5a`: an HMAC leaves its key and its text. -/
example : (hmac (fun _ _ => 0x5a) [97, 98] (List.replicate 32 1) ⟨0, []⟩).map (·.2.freed) =
    some [List.replicate 32 0x37 ++ List.replicate 32 0x36 ++ [97, 98]] := by decide +kernel

/-- An expansion to 40 bytes: two blocks of HMAC with the key, the first message, and a second message of 34 bytes. -/
example : (expand (fun _ _ => 0x5a) (List.replicate 32 0x5a) (List.replicate 40 0) 40 (List.replicate 32 1) [5] ⟨0, []⟩).map
      (fun r => (r.1.1, r.2.freed.map List.length, r.2.freed.map (·.take 32) |>.take 2, r.2.freed[2]?)) =
    some (0, [66, 98, 2, 34], [List.replicate 32 0x37, List.replicate 32 0x37], some [5, 1]) := by decide +kernel

/-- An expansion to 20 bytes does not write to its second buffer. -/
example : (expand (fun _ _ => 0x5a) (List.replicate 32 0x5a) (List.replicate 20 0) 20 (List.replicate 32 1) [5] ⟨0, []⟩).map
    (fun r => r.2.freed.drop 1) = some [[5, 1], List.replicate 34 0x5a] := by decide +kernel

/-- `secret_key` for a seed of zeros gives back six blocks. The seed stands in the first and in the last one. -/
example : (secretKey (fun _ _ => 0x5a) (List.replicate 32 0x5a) (List.replicate 48 0) 1 (List.replicate 32 0) ⟨0, []⟩).map
      (fun r => (r.1.isSome, r.2.freed.map List.length, (r.2.freed[0]?).map (·.drop 64), r.2.freed.getLast?)) =
    some (true, [97, 67, 99, 3, 35, 33], some (List.replicate 33 0), some (List.replicate 33 0)) := by decide +kernel

/-- The key is calculated from the last block. -/
example : ∃ sk m' b, secretKey (fun _ _ => 0x5a) (List.replicate 32 0x5a) (List.replicate 48 0) 1 (List.replicate 32 7) ⟨0, []⟩ =
    some (some sk, m') ∧ m'.freed.getLast? = some b ∧ Keys.secretKey (List.replicate 48 1) 1 b.dropLast = some (some sk) := by
  have hH : ∀ m, Fips.IsSha256 m (Sha256.hash [m]) := fun m => by
    have := Sha256.hash_isSha256 [m]
    rwa [List.flatten_singleton] at this
  have hs : ((secretKey (fun _ _ => 0x5a) (List.replicate 32 0x5a) (List.replicate 48 0) 1 (List.replicate 32 7) ⟨0, []⟩).bind
    (·.1)).isSome = true := by decide +kernel
  obtain ⟨sk, h⟩ := Option.isSome_iff_exists.1 hs
  obtain ⟨x, h1, h2⟩ := Option.bind_eq_some_iff.1 h
  obtain ⟨r, m'⟩ := x
  simp only [] at h2
  subst h2
  obtain ⟨b, hb1, hb2⟩ := C97_secretKey_readable hH (fun _ _ => 0x5a) (List.replicate 32 0x5a) (List.replicate 48 0)
    (List.replicate 48 1) List.length_replicate 1 (List.replicate 32 7) (by rw [List.length_replicate]) ⟨0, []⟩ m' sk
    List.length_replicate h1
  exact ⟨sk, m', b, h1, hb1, hb2⟩

/-- The first block of `derive_child_sk` for the parent key 3: the padded index 1 and behind it the key. -/
example : (ikmToLamportSk (fun _ _ => 0x5a) (List.replicate 32 0x5a) (List.replicate 8160 0) (Keys.skToBytes [3, 0, 0, 0])
      (Keys.indexBytes 1) ⟨0, []⟩).map (fun r => (r.2.freed.length, (r.2.freed[0]?).map (·.drop 64))) =
    some (258, some (List.replicate 31 0 ++ [3])) := by
  have hH : ∀ m, Fips.IsSha256 m (Sha256.hash [m]) := fun m => by
    have := Sha256.hash_isSha256 [m]
    rwa [List.flatten_singleton] at this
  rw [ikm_run hH _ _ _ _ _ List.length_replicate, Option.map_some]
  have hl := hkdf_length (H := fun m => Sha256.hash [m]) (Keys.skToBytes [3, 0, 0, 0]) (Keys.indexBytes 1) [] 8160 []
  have h0 : (Residue.hkdf (fun m => Sha256.hash [m]) (Keys.skToBytes [3, 0, 0, 0]) (Keys.indexBytes 1) [] 8160 [])[0]? =
    some (Residue.inner (fun m => Sha256.hash [m]) (Keys.indexBytes 1) (Keys.skToBytes [3, 0, 0, 0])) := rfl
  generalize Residue.hkdf (fun m => Sha256.hash [m]) (Keys.skToBytes [3, 0, 0, 0]) (Keys.indexBytes 1) [] 8160 [] = X at hl h0
  simp only [List.nil_append]
  rw [h0, hl, Option.map_some, Residue.inner, List.drop_left' (pad_length hH _)]
  decide

/-- The hypotheses of the theorem on derivation are met, and a key is returned. -/
example : ([3, 0, 0, 0] : List UInt64).length = 4 ∧ (List.replicate 8160 (0 : UInt8)).length = 8160 :=
  ⟨rfl, List.length_replicate⟩

end Bls.Props
