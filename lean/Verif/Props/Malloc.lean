import Verif.Proof.MallocKeys
import Verif.Props.Keys

/-!
# C80: memory and failing allocations in key generation

`Malloc.Env` says which calls of `malloc` succeed and what uninitialised memory contains; `Malloc.Heap` holds the blocks in
use. The outcome `none` is undefined behaviour: a write through a null pointer, past the end of a block, into a freed block,
or a second `free`. A heap is well formed if its blocks come from earlier calls.
-/

namespace Bls.Props
open Bls Malloc

/-- No block comes from a call of `malloc` that is still to come. -/
def WellFormed (h : Heap) : Prop := ∀ x ∈ h.blocks, x.1 < h.calls

section
variable {H : List UInt8 → List UInt8} (hH : ∀ m, Fips.IsSha256 m (H m))
include hH

/-- C80: `hkdf256_hmac` makes one allocation and gives it back. It returns 0 and the MAC of RFC 2104 if the allocation
succeeds, and -1 with `mac` untouched if not. -/
theorem C80_hmac (e : Env) (mac text key : List UInt8) (hm : mac.length = 32) (h : Heap) (hf : WellFormed h) :
    (e.grants h.calls = true → hmac e mac text key h = some ((0, Rfc.hmac H key text), ⟨h.calls + 1, h.blocks⟩)) ∧
    (e.grants h.calls = false → hmac e mac text key h = some ((-1, mac), ⟨h.calls + 1, h.blocks⟩)) := by
  constructor <;> intro hg <;> rw [hmac_run e mac text key hm h hf, hg]
  · rw [if_pos rfl, Hash.hmac_eq hH]
  · rfl

/-- C80: `hkdf256_expand` for admissible lengths and any allocator. It writes through a null pointer exactly when its first
block, or its second block and more than 32 bytes are asked for, is refused. Otherwise it reports success, gives back all its
blocks and writes the blocks that arise when a failing HMAC leaves the previous block in place. -/
theorem C80_expand (e : Env) (okm prk info : List UInt8) (L : ℕ) (hprk : prk.length = 32) (hL : 1 ≤ L) (hL' : L ≤ 8160)
    (hok : L ≤ okm.length) (h : Heap) (hf : WellFormed h) :
    (expand e okm L prk info h = none ↔ e.grants h.calls = false ∨ 32 < L ∧ e.grants (h.calls + 1) = false) ∧
    (∀ r h', expand e okm L prk info h = some (r, h') → r.1 = 0 ∧ h'.blocks = h.blocks ∧
      r.2 = Rfc.faultyExpand H (fun i => e.grants (h.calls + 1 + i)) (array 32 (e.t h.calls)) prk info L ++ okm.drop L) ∧
    ((∀ n, h.calls ≤ n → n ≤ h.calls + 1 + (L + 31) / 32 → e.grants n = true) →
      ∃ h', expand e okm L prk info h = some ((0, Rfc.expand H prk info L ++ okm.drop L), h')) := by
  rw [expand_run hH e okm prk info L hprk hL hL' hok h hf]
  refine ⟨?_, ?_, fun hg => ?_⟩
  · split
    · rename_i hc
      exact ⟨fun _ => hc, fun _ => rfl⟩
    · rename_i hc
      exact ⟨fun h => (by cases h), fun h => absurd h hc⟩
  · intro r h' hr
    split at hr
    · cases hr
    · obtain ⟨rfl, rfl⟩ := Prod.mk.inj (Option.some.inj hr)
      exact ⟨rfl, rfl, rfl⟩
  · rw [if_neg (by
      rintro (hc | ⟨_, hc⟩)
      · rw [hg _ le_rfl (by omega)] at hc; cases hc
      · rw [hg _ (by omega) (by omega)] at hc; cases hc),
      faultyExpand_good _ _ _ _ _ fun i h1 h2 => hg _ (by omega) (by omega)]
    exact ⟨_, rfl⟩

omit hH in
/-- C80: the other lengths. More than 8160 bytes are refused before anything is allocated. For length 0 the function returns
-3 after its two allocations and never gives them back. -/
theorem C80_expand_leak (e : Env) (okm prk info : List UInt8) (h : Heap) :
    (∀ L, 8160 < L → expand e okm L prk info h = some ((-1, okm), h)) ∧
    (e.grants h.calls = true → e.grants (h.calls + 1) = true → ∃ h', expand e okm 0 prk info h = some ((-3, okm), h') ∧
      h'.blocks.length = h.blocks.length + 2) := by
  refine ⟨fun L hL => ?_, fun h1 h2 => ⟨_, expand_zero e okm prk info h, ?_⟩⟩
  · unfold expand
    rw [if_pos (by omega)]
  · unfold malloc
    simp only [h1, h2, if_true, List.length_cons]

/-- C80: key generation when no allocation fails: no undefined behaviour, the key is that of the drafts, whatever the content
of uninitialised memory, and all blocks have been given back. -/
theorem C80_secret_key (e : Env) (he : ∀ n, e.grants n = true) (seed : List UInt8) (hs : 32 ≤ seed.length) (h : Heap)
    (hf : WellFormed h) :
    (∀ fuel, secretKey e fuel seed h ≠ none) ∧
    (∀ fuel sk h', secretKey e fuel seed h = some (some sk, h') →
      sk.length = 4 ∧ KeyGen.IsKey H seed (wordsVal sk) ∧ h'.blocks = h.blocks) ∧
    (∀ k, KeyGen.IsKey H seed k → ∃ fuel sk h', secretKey e fuel seed h = some (some sk, h') ∧ wordsVal sk = k) := by
  obtain ⟨c1, c2, c3⟩ := C38_secretKey hH (List.replicate 48 0) List.length_replicate seed hs
  have key := fun fuel => secretKey_good hH e he fuel seed h hf (List.replicate 48 0) List.length_replicate
  refine ⟨fun fuel hn => ?_, fun fuel sk h' hr => ?_, fun k hk => ?_⟩
  · have := key fuel
    rw [hn] at this
    exact c1 fuel this.symm
  · have := key fuel
    rw [hr] at this
    obtain ⟨d1, d2, _⟩ := c2 fuel sk this.symm
    exact ⟨d1, d2, (secretKey_blocks hH e fuel seed hs h hf hr).1⟩
  · obtain ⟨fuel, sk, d1, d2⟩ := c3 k hk
    have := key fuel
    rw [d1] at this
    obtain ⟨⟨x, h'⟩, hx, rfl⟩ := Option.map_eq_some_iff.1 this
    exact ⟨fuel, sk, h', hx, d2⟩

/-- C80: the same for hardened derivation. -/
theorem C80_derive_child (e : Env) (he : ∀ n, e.grants n = true) (parent : List UInt64) (hp : parent.length = 4)
    (index : UInt32) (h : Heap) (hf : WellFormed h) :
    (∀ fuel, deriveChildSk e fuel parent index h ≠ none) ∧
    (∀ fuel sk h', deriveChildSk e fuel parent index h = some (some sk, h') → sk.length = 4 ∧
      KeyGen.IsKey H (KeyGen.lamportPk H (wordsVal parent) index.toNat) (wordsVal sk) ∧ h'.blocks = h.blocks) := by
  obtain ⟨k, hk, run⟩ := lamport_good hH e he parent hp index h hf
  have hl : 32 ≤ (KeyGen.lamportPk H (wordsVal parent) index.toNat).length := (Keys.lamportPk_length hH _ _).ge
  have hf' : WellFormed ⟨k, h.blocks⟩ := fun x hx => lt_of_lt_of_le (hf x hx) hk
  obtain ⟨c1, c2, _⟩ := C80_secret_key hH e he _ hl ⟨k, h.blocks⟩ hf'
  have ev : ∀ fuel, deriveChildSk e fuel parent index h =
      secretKey e fuel (KeyGen.lamportPk H (wordsVal parent) index.toNat) ⟨k, h.blocks⟩ := fun fuel => by
    rw [deriveChildSk, run, Option.bind_some]
  exact ⟨fun fuel => by rw [ev]; exact c1 fuel, fun fuel sk h' hr => c2 fuel sk h' (by rw [← ev]; exact hr)⟩

/-- C80: whatever the allocator does, a key that is returned is not zero, so no failure is ever reported, and no block has
leaked or been given back twice. -/
theorem C80_balanced (e : Env) (seed : List UInt8) (hs : 32 ≤ seed.length) (parent : List UInt64) (index : UInt32) (h : Heap)
    (hf : WellFormed h) (fuel : ℕ) (sk : List UInt64) (h' : Heap) :
    (secretKey e fuel seed h = some (some sk, h') → h'.blocks = h.blocks ∧ wordsVal sk ≠ 0 ∧ wordsVal sk < q) ∧
    (deriveChildSk e fuel parent index h = some (some sk, h') → h'.blocks = h.blocks ∧ wordsVal sk ≠ 0 ∧ wordsVal sk < q) := by
  constructor <;> intro hr
  · obtain ⟨h1, _, _, h3, h4⟩ := secretKey_blocks hH e fuel seed hs h hf hr
    exact ⟨h1, h3, h4⟩
  · rw [deriveChildSk] at hr
    obtain ⟨x, hx, hr⟩ := Option.bind_eq_some_iff.1 hr
    obtain ⟨b1, b2, b3⟩ := lamport_blocks hH e parent index h hf hx
    obtain ⟨h1, _, _, h3, h4⟩ := secretKey_blocks hH e fuel x.1 b3.ge x.2 b2 hr
    exact ⟨h1.trans b1, h3, h4⟩

omit hH in
/-- C80: a seed of fewer than 32 bytes gives zero, without asking for memory. -/
theorem C80_short_seed (e : Env) (fuel : ℕ) (seed : List UInt8) (hs : seed.length < 32) (h : Heap) :
    secretKey e fuel seed h = some (some [0, 0, 0, 0], h) := by rw [secretKey, if_pos hs]

/-- A seed of 31 bytes. -/
example : (List.replicate 31 (7 : UInt8)).length < 32 := by decide

/-- C80: the allocations of the first attempt of `secret_key` one by one. If the first is refused, or the third or fourth,
there is a write through a null pointer. If all but possibly the last two are granted, the key is the number in the 48 bytes that
arise when a failing HMAC leaves the previous block in place. -/
theorem C80_first_attempt (e : Env) (fuel : ℕ) (seed : List UInt8) (hs : 32 ≤ seed.length) (h : Heap) (hf : WellFormed h) :
    (e.grants h.calls = false → secretKey e fuel seed h = none) ∧
    (e.grants h.calls = true → e.grants (h.calls + 1) = true →
      (e.grants (h.calls + 2) = false ∨ e.grants (h.calls + 3) = false) → secretKey e (fuel + 1) seed h = none) ∧
    ∀ X, e.grants h.calls = true → e.grants (h.calls + 1) = true → e.grants (h.calls + 2) = true →
      e.grants (h.calls + 3) = true →
      X = Rfc.faultyExpand H (fun i => e.grants (h.calls + 3 + i)) (array 32 (e.t (h.calls + 2)))
        (Rfc.extract H (KeyGen.salt H 0) (seed ++ Fips.be 1 0)) (Fips.be 2 48) 48 → beVal X % q ≠ 0 →
      ∃ sk h', secretKey e (fuel + 1) seed h = some (some sk, h') ∧ h'.blocks = h.blocks ∧ wordsVal sk = beVal X % q := by
  have hx := extractExpand_run hH e (array 48 (e.okm (h.calls + 1))) (seed ++ [0]) Keys.salt0 [0, 48] 48 (by norm_num)
    (by norm_num) (array_length _ _) ⟨h.calls + 1, (h.calls, seed ++ [0]) :: h.blocks⟩ (fresh_start seed h hf)
  have a1 : h.calls + 1 + 1 = h.calls + 2 := rfl
  have a2 : h.calls + 1 + 2 = h.calls + 3 := rfl
  simp only [a1, a2] at hx
  refine ⟨secretKey_null e fuel seed hs h, fun g0 g1 g => ?_, fun X g0 g1 g2 g3 hX h0 => ?_⟩
  · have lm := load_mid (h.calls + 1) h.calls (seed ++ [0]) [] h.blocks (by simp)
    simp only [List.nil_append] at lm
    rw [if_neg (by simp [g1]), if_pos (g.imp_right fun g => ⟨by norm_num, g⟩)] at hx
    rw [secretKey_start e _ seed hs h hf g0, secretKeyLoop, lm, Option.bind_some, List.take_length, hx]
    rfl
  · rw [if_neg (by simp [g1]), if_neg (by simp [g2, g3])] at hx
    have es : KeyGen.salt H 0 = Keys.salt0 := Keys.salt_iterate (H := H) 0
    rw [es, show Fips.be 1 0 = [0] by decide, show Fips.be 2 48 = [0, 48] by decide] at hX
    rw [← hX] at hx
    obtain ⟨sk, k1, _, k3⟩ := secretKey_first hH e fuel seed hs h hf g0 X _ 0 hx h0
    exact ⟨sk, _, k1, rfl, k3⟩

/-- C80: if the allocation inside `hkdf256_extract` fails, `secret_key` returns the uninitialised array `okmHkdf` reduced modulo
`q` as the secret key, for every seed. -/
theorem C80_uninitialised_key (e : Env) (fuel : ℕ) (seed : List UInt8) (hs : 32 ≤ seed.length) (h : Heap) (hf : WellFormed h)
    (g0 : e.grants h.calls = true) (g1 : e.grants (h.calls + 1) = false)
    (h0 : beVal (array 48 (e.okm (h.calls + 1))) % q ≠ 0) :
    ∃ sk h', secretKey e (fuel + 1) seed h = some (some sk, h') ∧ h'.blocks = h.blocks ∧
      wordsVal sk = beVal (array 48 (e.okm (h.calls + 1))) % q := by
  have hx := extractExpand_run hH e (array 48 (e.okm (h.calls + 1))) (seed ++ [0]) Keys.salt0 [0, 48] 48 (by norm_num)
    (by norm_num) (array_length _ _) ⟨h.calls + 1, (h.calls, seed ++ [0]) :: h.blocks⟩ (fresh_start seed h hf)
  rw [if_pos g1] at hx
  obtain ⟨sk, k1, _, k3⟩ := secretKey_first hH e fuel seed hs h hf g0 _ _ (-1) hx h0
  exact ⟨sk, _, k1, rfl, k3⟩

/-- C80: if only the allocation of the second HMAC of the expansion fails, the key is made of the first block and its first
half again instead of the second block. -/
theorem C80_repeated_block (e : Env) (fuel : ℕ) (seed : List UInt8) (hs : 32 ≤ seed.length) (h : Heap) (hf : WellFormed h)
    (g : ∀ i < 5, e.grants (h.calls + i) = true) (g5 : e.grants (h.calls + 5) = false) (B : List UInt8)
    (hB : B = Rfc.T H (Rfc.extract H (KeyGen.salt H 0) (seed ++ Fips.be 1 0)) (Fips.be 2 48) 1)
    (h0 : beVal (B ++ B.take 16) % q ≠ 0) :
    ∃ sk h', secretKey e (fuel + 1) seed h = some (some sk, h') ∧ wordsVal sk = beVal (B ++ B.take 16) % q := by
  have hl : B.length = 32 := by rw [hB]; exact Hash.T_length hH _ _ 0
  obtain ⟨sk, h', k1, _, k3⟩ := (C80_first_attempt hH e fuel seed hs h hf).2.2 (B ++ B.take 16) (g 0 (by norm_num))
    (g 1 (by norm_num)) (g 2 (by norm_num)) (g 3 (by norm_num)) (by
      have t1 : Rfc.faultyT H (fun i => e.grants (h.calls + 3 + i)) (array 32 (e.t (h.calls + 2)))
          (Rfc.extract H (KeyGen.salt H 0) (seed ++ Fips.be 1 0)) (Fips.be 2 48) 1 = B := by
        rw [hB]
        refine faultyT_good _ _ _ _ 0 fun i h1 h2 => ?_
        obtain rfl : i = 1 := by omega
        exact g 4 (by norm_num)
      have t2 : Rfc.faultyT H (fun i => e.grants (h.calls + 3 + i)) (array 32 (e.t (h.calls + 2)))
          (Rfc.extract H (KeyGen.salt H 0) (seed ++ Fips.be 1 0)) (Fips.be 2 48) 2 = B := by
        rw [Rfc.faultyT, if_neg (by
          have : e.grants (h.calls + 3 + (1 + 1)) = false := g5
          rw [this]; simp), t1]
      rw [Rfc.faultyExpand, show (48 + 31) / 32 = 2 from rfl, show List.range 2 = [0, 1] from rfl, List.map_cons,
        List.map_singleton, t1, t2, List.flatten_cons, List.flatten_singleton, List.take_append, hl,
        List.take_of_length_le (l := B) (i := 48) (by omega)]) h0
  exact ⟨sk, h', k1, k3⟩

/-- C80: so the keys are not those of the drafts as soon as an allocation fails: with one refused allocation some content of the
uninitialised memory gives a wrong key, for every seed. -/
theorem C80_wrong_key (seed : List UInt8) (hs : 32 ≤ seed.length) : ∃ e : Env, (∀ n, n ≠ 1 → e.grants n = true) ∧
    ∃ sk h', secretKey e 1 seed ⟨0, []⟩ = some (some sk, h') ∧ ¬ KeyGen.IsKey H seed (wordsVal sk) := by
  have uniq : ∀ a b, KeyGen.IsKey H seed a → KeyGen.IsKey H seed b → a = b := by
    rintro a b ⟨n, h1, h2, h3⟩ ⟨m, h4, h5, h6⟩
    rcases lt_trichotomy n m with hlt | rfl | hlt
    · exact absurd (h2.symm.trans (h4 n hlt)) h3
    · exact h2.symm.trans h5
    · exact absurd (h5.symm.trans (h1 m hlt)) h6
  have run : ∀ v : UInt8, beVal (array 48 fun i => if i = 47 then v else 0) % q = v.toNat → v ≠ 0 →
      ∃ sk h', secretKey ⟨fun n => n ≠ 1, fun _ _ => 0, fun _ _ => 0, fun _ _ => 0, fun _ i => if i = 47 then v else 0,
        fun _ _ => 0, fun _ _ => 0⟩ 1 seed ⟨0, []⟩ = some (some sk, h') ∧ wordsVal sk = v.toNat := by
    intro v hv h0
    obtain ⟨sk, h', k1, _, k3⟩ := C80_uninitialised_key hH ⟨fun n => n ≠ 1, fun _ _ => 0, fun _ _ => 0, fun _ _ => 0,
      fun _ i => if i = 47 then v else 0, fun _ _ => 0, fun _ _ => 0⟩ 0 seed hs ⟨0, []⟩ (by intro x hx; cases hx) (by simp)
      (by simp) (by
        dsimp only
        rw [hv]
        intro h
        exact h0 (UInt8.toNat_inj.1 h))
    exact ⟨sk, h', k1, k3.trans hv⟩
  obtain ⟨s1, h1, a1, a2⟩ := run 1 (by decide +kernel) (by decide)
  obtain ⟨s2, h2, b1, b2⟩ := run 2 (by decide +kernel) (by decide)
  by_cases hk : KeyGen.IsKey H seed 1
  · refine ⟨_, ?_, s2, h2, b1, fun h => ?_⟩
    · intro n hn; simp [hn]
    · rw [b2] at h
      exact absurd (uniq _ _ hk h) (by decide)
  · refine ⟨_, ?_, s1, h1, a1, fun h => ?_⟩
    · intro n hn; simp [hn]
    · rw [a2] at h
      exact hk h

end

/-- An empty heap is well formed, so is a heap with one block of an earlier call; memory filled with `0x5a` is not zero
modulo `q`. -/
example : WellFormed ⟨0, []⟩ ∧ WellFormed ⟨3, [(2, [1, 2])]⟩ ∧ beVal (array 48 fun _ => 0x5a) % q ≠ 0 := by
  refine ⟨fun x hx => (by cases hx), fun x hx => ?_, by decide +kernel⟩
  rw [List.mem_singleton.1 hx]
  decide

/-- The environment of the examples below: calls `≠ k` of `malloc` succeed, memory is filled with `0x5a`. -/
def envWithout (k : ℕ) : Env := ⟨fun n => n ≠ k, fun _ _ => 0x5a, fun _ _ => 0x5a, fun _ _ => 0x5a, fun _ _ => 0x5a, fun _ _ => 0x5a,
  fun _ _ => 0x5a⟩

/-- The theorems for this environment, an empty heap and the seed of 32 zeros. -/
example {H : List UInt8 → List UInt8} (hH : ∀ m, Fips.IsSha256 m (H m)) :
    hmac (envWithout 0) (List.replicate 32 0) [97] [1] ⟨0, []⟩ = some ((-1, List.replicate 32 0), ⟨1, []⟩) ∧
    expand (envWithout 1) (List.replicate 48 0) 48 (List.replicate 32 1) [5] ⟨0, []⟩ = none ∧
    (∃ sk h', secretKey (envWithout 1) 1 (List.replicate 32 0) ⟨0, []⟩ = some (some sk, h') ∧ h'.blocks = [] ∧
      wordsVal sk = beVal (array 48 fun _ => 0x5a) % q) ∧
    secretKey (envWithout 3) 1 (List.replicate 32 0) ⟨0, []⟩ = none := by
  have hf : WellFormed ⟨0, []⟩ := fun x hx => (by cases hx)
  exact ⟨(C80_hmac hH (envWithout 0) _ _ _ (by decide) ⟨0, []⟩ hf).2 rfl,
    (C80_expand hH (envWithout 1) _ _ _ 48 (by decide) (by decide) (by decide) (by decide) ⟨0, []⟩ hf).1.2 (.inr ⟨by decide, rfl⟩),
    C80_uninitialised_key hH (envWithout 1) 0 _ (by decide) ⟨0, []⟩ hf rfl rfl (by decide +kernel),
    (C80_first_attempt hH (envWithout 3) 0 _ (by decide) ⟨0, []⟩ hf).2.1 rfl rfl (.inr rfl)⟩

/-- An allocator that never refuses, a heap with one block; the seed of 32 zeros and the child 0 of the key 3. -/
example {H : List UInt8 → List UInt8} (hH : ∀ m, Fips.IsSha256 m (H m)) (e : Env) (he : ∀ n, e.grants n = true) (fuel : ℕ) :
    secretKey e fuel (List.replicate 32 0) ⟨3, [(2, [7])]⟩ ≠ none ∧ deriveChildSk e fuel [3, 0, 0, 0] 0 ⟨3, [(2, [7])]⟩ ≠ none ∧
    ∀ sk h', secretKey e fuel (List.replicate 32 0) ⟨3, [(2, [7])]⟩ = some (some sk, h') → h'.blocks = [(2, [7])] ∧ wordsVal sk ≠ 0 := by
  have hf : WellFormed ⟨3, [(2, [7])]⟩ := fun x hx => by rw [List.mem_singleton.1 hx]; decide
  refine ⟨(C80_secret_key hH e he _ (by decide) _ hf).1 fuel, (C80_derive_child hH e he _ rfl 0 _ hf).1 fuel, fun sk h' h => ?_⟩
  have := (C80_balanced hH e _ (by decide) [3, 0, 0, 0] 0 _ hf fuel sk h').1 h
  exact ⟨this.1, this.2.1⟩

/-- The second HMAC of the expansion is refused: the first block of the seed of 32 zeros occurs one and a half times. -/
example : ∃ sk h', secretKey (envWithout 5) 1 (List.replicate 32 0) ⟨0, []⟩ = some (some sk, h') ∧ ∃ B : List UInt8,
    B.length = 32 ∧ wordsVal sk = beVal (B ++ B.take 16) % q := by
  have hH : ∀ m, Fips.IsSha256 m (Sha256.hash [m]) := fun m => by
    have := Sha256.hash_isSha256 [m]
    rwa [List.flatten_singleton] at this
  obtain ⟨B, hB⟩ : ∃ B, B = Rfc.T (fun m => Sha256.hash [m]) (Rfc.extract (fun m => Sha256.hash [m]) (KeyGen.salt (fun m => Sha256.hash [m]) 0)
      (List.replicate 32 0 ++ Fips.be 1 0)) (Fips.be 2 48) 1 := ⟨_, rfl⟩
  have hl : B.length = 32 := by rw [hB]; exact Hash.T_length hH _ _ 0
  obtain ⟨sk, h', h1, h2⟩ := C80_repeated_block (H := fun m => Sha256.hash [m]) hH (envWithout 5) 0 (List.replicate 32 0) (by decide)
    ⟨0, []⟩ (fun x hx => (by cases hx)) (by decide) (by decide) B hB (by rw [hB]; decide +kernel)
  exact ⟨sk, h', h1, B, hl, h2⟩

/-- If the second allocation is refused, the seeds `00…0` and `11…1` both give the key `0x5a…5a mod q`. -/
example : ((secretKey (envWithout 1) 1 (List.replicate 32 0) ⟨0, []⟩).bind (·.1)).map wordsVal =
      some (beVal (List.replicate 48 0x5a) % q) ∧
    ((secretKey (envWithout 1) 1 (List.replicate 32 1) ⟨0, []⟩).bind (·.1)).map wordsVal =
      some (beVal (List.replicate 48 0x5a) % q) := by
  decide +kernel

/-- If the third is refused, the run is undefined. -/
example : (secretKey (envWithout 2) 1 (List.replicate 32 0) ⟨0, []⟩).isNone := by decide +kernel

/-- If the sixth is refused, a key is returned and only the block of the caller is left. -/
example : (secretKey (envWithout 8) 1 (List.replicate 32 0) ⟨3, [(2, [7])]⟩).map (fun r => (r.1.isSome, r.2.blocks)) =
    some (true, [(2, [7])]) := by decide +kernel

/-- Two blocks are left behind by an expansion to length 0. -/
example : (expand (envWithout 99) [] 0 (List.replicate 32 1) [5] ⟨0, []⟩).map (·.2.blocks.length) = some 2 := by decide +kernel

end Bls.Props
