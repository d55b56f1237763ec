import Verif.Proof.Malloc
import Verif.Proof.Keys

/-! Key generation with a heap. -/

namespace Bls.Malloc
open Hash (writeAt IsSha)

section
variable {H : List UInt8 → List UInt8}

theorem faultyT_good (good : ℕ → Bool) (t0 prk info : List UInt8) :
    ∀ n, (∀ i, 1 ≤ i → i ≤ n + 1 → good i = true) → Rfc.faultyT H good t0 prk info (n + 1) = Rfc.T H prk info (n + 1)
  | 0, h => by rw [Rfc.faultyT, if_pos (h 1 le_rfl le_rfl), if_pos rfl]; rfl
  | n + 1, h => by
    rw [Rfc.faultyT, if_pos (h _ (by omega) le_rfl), if_neg (by omega),
      faultyT_good good t0 prk info n fun i h1 h2 => h i h1 (by omega)]
    rfl

/-- No failing call: HKDF-Expand. -/
theorem faultyExpand_good (good : ℕ → Bool) (t0 prk info : List UInt8) (L : ℕ)
    (h : ∀ i, 1 ≤ i → i ≤ (L + 31) / 32 → good i = true) :
    Rfc.faultyExpand H good t0 prk info L = Rfc.expand H prk info L := by
  rw [Rfc.faultyExpand, Rfc.expand]
  congr 2
  refine List.map_congr_left fun i hi => faultyT_good good t0 prk info i fun j h1 h2 => h j h1 ?_
  have := List.mem_range.1 hi
  omega

end

section
variable {H : List UInt8 → List UInt8} (hH : IsSha H)
include hH

theorem faultyExpand_length (good : ℕ → Bool) (t0 prk info : List UInt8) (L : ℕ) (h0 : t0.length = 32) :
    (Rfc.faultyExpand H good t0 prk info L).length = L := by
  have := Hash.blocks_length (fun i => Rfc.faultyT H good t0 prk info (i + 1))
    (fun i => faultyT_length hH good t0 prk info h0 (i + 1)) ((L + 31) / 32)
  rw [Hash.blocks] at this
  rw [Rfc.faultyExpand, List.length_take, this]; omega

/-- `hkdf256_extract_expand` on any heap. -/
theorem extractExpand_run (e : Env) (out key salt info : List UInt8) (L : ℕ) (hL : 1 ≤ L) (hL' : L ≤ 8160)
    (hok : out.length = L) (h : Heap) (hf : Fresh h) :
    extractExpand e out L key salt info h =
      if e.grants h.calls = false then some ((-1, out), ⟨h.calls + 1, h.blocks⟩)
      else if e.grants (h.calls + 1) = false ∨ 32 < L ∧ e.grants (h.calls + 2) = false then none
      else some ((0, Rfc.faultyExpand H (fun i => e.grants (h.calls + 2 + i)) (array 32 (e.t (h.calls + 1)))
        (Rfc.extract H salt key) info L), ⟨h.calls + 3 + (L + 31) / 32, h.blocks⟩) := by
  unfold extractExpand extract
  rw [hmac_run e _ _ _ (array_length _ _) h hf, Option.bind_some]
  cases hg : e.grants h.calls with
  | false => rfl
  | true =>
    have hf' : Fresh ⟨h.calls + 1, h.blocks⟩ := fun x hx => Nat.lt_succ_of_lt (hf x hx)
    rw [if_pos rfl, if_neg (by simp), if_neg (by simp)]
    dsimp only
    rw [expand_run hH e out (Hash.hmac key salt) info L (hmac_length _ _) hL hL' hok.ge _ hf', ← hok, List.drop_length,
      List.append_nil, Hash.hmac_eq hH]
    have a1 : h.calls + 1 + 1 = h.calls + 2 := rfl
    have a2 : h.calls + 1 + 2 = h.calls + 3 := rfl
    dsimp only
    rw [a1, a2]
    rfl

/-- Whatever the allocator does, `hkdf256_extract_expand` gives back its blocks. -/
theorem extractExpand_blocks (e : Env) (out key salt info : List UInt8) (L : ℕ) (hL : 1 ≤ L) (hL' : L ≤ 8160)
    (hok : out.length = L) (h : Heap) (hf : Fresh h) {r : (Int × List UInt8) × Heap}
    (hr : extractExpand e out L key salt info h = some r) :
    r.2.blocks = h.blocks ∧ Fresh r.2 ∧ r.1.2.length = L := by
  rw [extractExpand_run hH e out key salt info L hL hL' hok h hf] at hr
  split at hr
  · obtain rfl := Option.some.inj hr
    exact ⟨rfl, fun x hx => Nat.lt_succ_of_lt (hf x hx), hok⟩
  · split at hr
    · cases hr
    · obtain rfl := Option.some.inj hr
      exact ⟨rfl, fun x hx => lt_of_lt_of_le (hf x hx) (by dsimp only; omega), faultyExpand_length hH _ _ _ _ _ (array_length _ _)⟩

/-- With an allocator that never fails `hkdf256_extract_expand` is HKDF. -/
theorem extractExpand_good (e : Env) (he : ∀ n, e.grants n = true) (out key salt info : List UInt8) (L : ℕ) (hL : 1 ≤ L)
    (hL' : L ≤ 8160) (hok : out.length = L) (h : Heap) (hf : Fresh h) :
    extractExpand e out L key salt info h =
      some ((0, Rfc.expand H (Rfc.extract H salt key) info L), ⟨h.calls + 3 + (L + 31) / 32, h.blocks⟩) := by
  rw [extractExpand_run hH e out key salt info L hL hL' hok h hf, if_neg (by simp [he]), if_neg (by simp [he]),
    faultyExpand_good _ _ _ _ _ fun i _ _ => he _]

/-! ## `secret_key` -/

/-- The loop never changes the blocks, and what it returns is a non-zero reduced key. -/
theorem secretKeyLoop_blocks (e : Env) (b : ℕ) (buf : List UInt8) (rest : List (ℕ × List UInt8)) (len : ℕ) :
    ∀ (fuel : ℕ) (salt okm : List UInt8) (k : ℕ), okm.length = 48 → Fresh ⟨k, (b, buf) :: rest⟩ →
    ∀ r, secretKeyLoop e (some b) len fuel salt okm ⟨k, (b, buf) :: rest⟩ = some r →
      (∃ k', r.2 = ⟨k', (b, buf) :: rest⟩ ∧ k ≤ k') ∧ ∀ sk, r.1 = some sk → sk.length = 4 ∧ wordsVal sk ≠ 0 ∧ wordsVal sk < q
  | 0, salt, okm, k, _, _, r, hr => by
    obtain rfl := Option.some.inj hr
    exact ⟨⟨k, rfl, le_rfl⟩, fun sk h => by cases h⟩
  | fuel + 1, salt, okm, k, hok, hf, r, hr => by
    rw [secretKeyLoop] at hr
    obtain ⟨buf', _, hr⟩ := Option.bind_eq_some_iff.1 hr
    obtain ⟨x, hx, hr⟩ := Option.bind_eq_some_iff.1 hr
    have hk : k ≤ x.2.calls := by
      rw [extractExpand_run hH e okm _ salt [0, 48] 48 (by norm_num) (by norm_num) hok _ hf] at hx
      split at hx
      · obtain rfl := Option.some.inj hx
        dsimp only; omega
      · split at hx
        · cases hx
        · obtain rfl := Option.some.inj hx
          dsimp only; omega
    obtain ⟨h1, h2, h3⟩ := extractExpand_blocks hH e okm _ salt [0, 48] 48 (by norm_num) (by norm_num) hok _ hf hx
    obtain ⟨⟨c, okm'⟩, ⟨k', B'⟩⟩ := x
    dsimp only at h1 h3 hk hr
    subst h1
    obtain ⟨c', d, d1, d2, d3⟩ := Keys.divQ (Scalar.fromBytesBE 6 okm') (by rw [Scalar.fromBytesBE_length]; norm_num)
    rw [d1, Option.bind_some] at hr
    dsimp only at hr
    by_cases h0 : wordsVal d = 0
    · rw [(Keys.equal_zero d2).2 h0, if_neg (by simp)] at hr
      obtain ⟨⟨k'', i1, i2⟩, i3⟩ := secretKeyLoop_blocks e b buf rest len fuel _ okm' k' h3 h2 r hr
      exact ⟨⟨k'', i1, hk.trans i2⟩, i3⟩
    · have hne : Scalar.equal d [0, 0, 0, 0] = false := by
        rw [Bool.eq_false_iff]; intro h; exact h0 ((Keys.equal_zero d2).1 h)
      rw [hne, Bool.not_false, if_pos rfl] at hr
      obtain rfl := Option.some.inj hr
      refine ⟨⟨k', rfl, hk⟩, fun sk h => ?_⟩
      obtain rfl := Option.some.inj h
      exact ⟨d2, h0, by rw [d3]; exact Nat.mod_lt _ (by decide +kernel)⟩

/-- With an allocator that never fails the loop is that of `Model/Keys.lean`. -/
theorem secretKeyLoop_good (e : Env) (he : ∀ n, e.grants n = true) (b : ℕ) (buf : List UInt8)
    (rest : List (ℕ × List UInt8)) :
    ∀ (fuel : ℕ) (salt okm okm' : List UInt8) (k : ℕ), okm.length = 48 → okm'.length = 48 → Fresh ⟨k, (b, buf) :: rest⟩ →
    ∃ k', secretKeyLoop e (some b) buf.length fuel salt okm ⟨k, (b, buf) :: rest⟩ =
      (Keys.secretKeyLoop buf fuel salt okm').map fun r => (r, ⟨k', (b, buf) :: rest⟩)
  | 0, salt, okm, okm', k, _, _, _ => ⟨k, rfl⟩
  | fuel + 1, salt, okm, okm', k, hok, hok', hf => by
    have lm := load_mid k b buf [] rest (by simp)
    rw [List.nil_append] at lm
    rw [secretKeyLoop, lm, Option.bind_some, List.take_length,
      extractExpand_good hH e he okm buf salt [0, 48] 48 (by norm_num) (by norm_num) hok _ hf, Option.bind_some,
      Keys.secretKeyLoop, Keys.extractExpand_eq hH okm' buf salt [0, 48] 48 (by norm_num) (by norm_num) hok']
    dsimp only
    have hl := Keys.expand_length hH (Rfc.extract H salt buf) [0, 48] 48
    generalize Rfc.expand H (Rfc.extract H salt buf) [0, 48] 48 = X at hl ⊢
    obtain ⟨c, d, d1, d2, d3⟩ := Keys.divQ (Scalar.fromBytesBE 6 X) (by rw [Scalar.fromBytesBE_length]; norm_num)
    rw [d1, Option.bind_some]
    dsimp only
    cases hne : Scalar.equal d [0, 0, 0, 0] with
    | false => exact ⟨k + 3 + (48 + 31) / 32, rfl⟩
    | true =>
      exact secretKeyLoop_good e he b buf rest fuel _ X X _ hl hl fun x hx => lt_of_lt_of_le (hf x hx) (by dsimp only; omega)

omit hH in
/-- The first lines of `secret_key`. -/
theorem secretKey_start (e : Env) (fuel : ℕ) (seed : List UInt8) (hs : 32 ≤ seed.length) (h : Heap) (hf : Fresh h)
    (hg : e.grants h.calls = true) :
    secretKey e fuel seed h =
      (secretKeyLoop e (some h.calls) (seed ++ [0]).length fuel Keys.salt0 (array 48 (e.okm (h.calls + 1)))
        ⟨h.calls + 1, (h.calls, seed ++ [0]) :: h.blocks⟩).bind fun x =>
      match x.1 with
      | none => some (none, x.2)
      | some sk => (free x.2 (some h.calls)).map fun h => (some sk, h) := by
  have hold : ∀ x ∈ h.blocks, x.1 ≠ h.calls := fun x hx => (hf x hx).ne
  have sm := fun off buf bs => store_mid (h.calls + 1) h.calls off buf bs [] h.blocks (by simp) hold
  simp only [List.nil_append] at sm
  unfold secretKey
  rw [if_neg (by omega)]
  have e1 : malloc e (seed.length + 1) h =
      (some h.calls, ⟨h.calls + 1, (h.calls, array (seed.length + 1) (e.block h.calls)) :: h.blocks⟩) := by
    unfold malloc; simp only [hg, if_true]
  rw [e1]
  dsimp only
  rw [sm, writeAt_zero (by rw [array_length]; omega), Option.map_some, Option.bind_some,
    sm, writeAt_end rfl (by rw [List.length_drop, array_length]; simp), Option.map_some, Option.bind_some,
    List.length_append]
  rfl

omit hH in
/-- No block for the key material: the copy goes through the null pointer. -/
theorem secretKey_null (e : Env) (fuel : ℕ) (seed : List UInt8) (hs : 32 ≤ seed.length) (h : Heap)
    (hg : e.grants h.calls = false) : secretKey e fuel seed h = none := by
  unfold secretKey
  rw [if_neg (by omega)]
  have e1 : malloc e (seed.length + 1) h = (none, ⟨h.calls + 1, h.blocks⟩) := by
    unfold malloc; simp only [hg, Bool.false_eq_true, if_false]
  rw [e1]
  rfl

omit hH in
theorem fresh_start (seed : List UInt8) (h : Heap) (hf : Fresh h) :
    Fresh ⟨h.calls + 1, (h.calls, seed ++ [0]) :: h.blocks⟩ := by
  intro x hx
  rcases List.mem_cons.1 hx with rfl | hx
  · exact Nat.lt_succ_self _
  · exact Nat.lt_succ_of_lt (hf x hx)

/-- `secret_key` with any allocator: whatever it returns, its blocks have been given back. -/
theorem secretKey_blocks (e : Env) (fuel : ℕ) (seed : List UInt8) (hs : 32 ≤ seed.length) (h : Heap) (hf : Fresh h)
    {sk : List UInt64} {h' : Heap} (hr : secretKey e fuel seed h = some (some sk, h')) :
    h'.blocks = h.blocks ∧ Fresh h' ∧ sk.length = 4 ∧ wordsVal sk ≠ 0 ∧ wordsVal sk < q := by
  cases hg : e.grants h.calls with
  | false => rw [secretKey_null e fuel seed hs h hg] at hr; cases hr
  | true =>
    have hold : ∀ x ∈ h.blocks, x.1 ≠ h.calls := fun x hx => (hf x hx).ne
    rw [secretKey_start e fuel seed hs h hf hg] at hr
    obtain ⟨x, hx, hr⟩ := Option.bind_eq_some_iff.1 hr
    obtain ⟨⟨k', i1, i2⟩, i3⟩ := secretKeyLoop_blocks hH e h.calls (seed ++ [0]) h.blocks _ fuel Keys.salt0 _ (h.calls + 1)
      (array_length _ _) (fresh_start seed h hf) x hx
    obtain ⟨x1, x2⟩ := x
    dsimp only at i1 i3 hr
    subst i1
    cases x1 with
    | none => cases hr
    | some sk' =>
      have fm := free_mid k' h.calls (seed ++ [0]) [] h.blocks (by simp) hold
      simp only [List.nil_append] at fm
      dsimp only at hr
      rw [fm, Option.map_some, Option.some.injEq, Prod.mk.injEq, Option.some.injEq] at hr
      obtain ⟨rfl, rfl⟩ := hr
      exact ⟨rfl, fun y hy => lt_of_lt_of_le (hf y hy) (by dsimp only; omega), i3 sk' rfl⟩

/-- With an allocator that never fails `secret_key` is the function of `Model/Keys.lean`. -/
theorem secretKey_good (e : Env) (he : ∀ n, e.grants n = true) (fuel : ℕ) (seed : List UInt8) (h : Heap) (hf : Fresh h)
    (junk : List UInt8) (hj : junk.length = 48) :
    (secretKey e fuel seed h).map Prod.fst = Keys.secretKey junk fuel seed := by
  by_cases hs : 32 ≤ seed.length
  · have hold : ∀ x ∈ h.blocks, x.1 ≠ h.calls := fun x hx => (hf x hx).ne
    rw [secretKey_start e fuel seed hs h hf (he _), Keys.secretKey, if_neg (by omega)]
    obtain ⟨k', hk⟩ := secretKeyLoop_good hH e he h.calls (seed ++ [0]) h.blocks fuel Keys.salt0
      (array 48 (e.okm (h.calls + 1))) junk (h.calls + 1) (array_length _ _) hj (fresh_start seed h hf)
    rw [hk]
    have fm := free_mid k' h.calls (seed ++ [0]) [] h.blocks (by simp) hold
    simp only [List.nil_append] at fm
    cases Keys.secretKeyLoop (seed ++ [0]) fuel Keys.salt0 junk with
    | none => rfl
    | some r =>
      cases r with
      | none => rfl
      | some sk =>
        rw [Option.map_some, Option.bind_some]
        dsimp only
        rw [fm]
        rfl
  · rw [secretKey, if_pos (by omega), Keys.secretKey, if_pos (by omega)]
    rfl

/-- The first candidate, with any allocator. -/
theorem secretKey_first (e : Env) (fuel : ℕ) (seed : List UInt8) (hs : 32 ≤ seed.length) (h : Heap) (hf : Fresh h)
    (hg : e.grants h.calls = true) (X : List UInt8) (k : ℕ) (c : Int)
    (hx : extractExpand e (array 48 (e.okm (h.calls + 1))) 48 (seed ++ [0]) Keys.salt0 [0, 48]
      ⟨h.calls + 1, (h.calls, seed ++ [0]) :: h.blocks⟩ = some ((c, X), ⟨k, (h.calls, seed ++ [0]) :: h.blocks⟩))
    (h0 : beVal X % q ≠ 0) :
    ∃ sk, secretKey e (fuel + 1) seed h = some (some sk, ⟨k, h.blocks⟩) ∧ sk.length = 4 ∧ wordsVal sk = beVal X % q := by
  have hold : ∀ x ∈ h.blocks, x.1 ≠ h.calls := fun x hx => (hf x hx).ne
  have lm := load_mid (h.calls + 1) h.calls (seed ++ [0]) [] h.blocks (by simp)
  have fm := free_mid k h.calls (seed ++ [0]) [] h.blocks (by simp) hold
  simp only [List.nil_append] at fm lm
  have hl : X.length = 48 := (extractExpand_blocks hH e _ _ _ [0, 48] 48 (by norm_num) (by norm_num) (array_length _ _) _
    (fresh_start seed h hf) hx).2.2
  obtain ⟨c', d, d1, d2, d3⟩ := Keys.divQ (Scalar.fromBytesBE 6 X) (by rw [Scalar.fromBytesBE_length]; norm_num)
  rw [Scalar.fromBytesBE_val 6 _ (by rw [hl])] at d3
  have hne : Scalar.equal d [0, 0, 0, 0] = false := by
    rw [Bool.eq_false_iff]; intro h; exact h0 (d3.symm.trans ((Keys.equal_zero d2).1 h))
  refine ⟨d, ?_, d2, d3⟩
  rw [secretKey_start e _ seed hs h hf hg, secretKeyLoop, lm, Option.bind_some, List.take_length, hx, Option.bind_some]
  dsimp only
  rw [d1, Option.bind_some]
  dsimp only
  rw [hne, Bool.not_false, if_pos rfl, Option.bind_some]
  dsimp only
  rw [fm]
  rfl

/-! ## `derive_child_sk` -/

omit hH in
theorem keys_lamport_of (j0 j1 : List UInt8) (sk : List UInt64) (i : UInt32) (A B : List UInt8)
    (h0 : Keys.ikmToLamportSk j0 (Scalar.toBytesBE sk) (Keys.indexBytes i) = some A)
    (h1 : Keys.ikmToLamportSk j1 ((Scalar.toBytesBE sk).map (· ^^^ 0xff)) (Keys.indexBytes i) = some B) :
    Keys.parentSkToLamportPk j0 j1 sk i = some (Sha256.hash [Keys.hashPieces A ++ Keys.hashPieces B]) := by
  unfold Keys.parentSkToLamportPk
  dsimp only
  rw [h0, h1]

omit hH in
theorem lamport_of (e : Env) (sk : List UInt64) (i : UInt32) (A B : List UInt8) (h h1 h2 : Heap)
    (r0 : ikmToLamportSk e (array (32 * 255) (e.lamport0 h.calls)) (Scalar.toBytesBE sk) (Keys.indexBytes i) h = some (A, h1))
    (r1 : ikmToLamportSk e (array (32 * 255) (e.lamport1 h.calls)) ((Scalar.toBytesBE sk).map (· ^^^ 0xff))
      (Keys.indexBytes i) h1 = some (B, h2)) :
    parentSkToLamportPk e sk i h = some (Sha256.hash [Keys.hashPieces A ++ Keys.hashPieces B], h2) := by
  unfold parentSkToLamportPk
  dsimp only
  rw [r0, Option.bind_some]
  dsimp only
  rw [r1, Option.map_some]

theorem ikm_run (e : Env) (he : ∀ n, e.grants n = true) (out ikm salt : List UInt8) (g : Heap) (ho : out.length = 32 * 255)
    (hg : Fresh g) : ikmToLamportSk e out ikm salt g =
      some (Rfc.expand H (Rfc.extract H salt ikm) [] (32 * 255), ⟨g.calls + 3 + (32 * 255 + 31) / 32, g.blocks⟩) := by
  unfold ikmToLamportSk
  generalize hL : 32 * 255 = L at ho ⊢
  rw [extractExpand_good hH e he out ikm salt [] L (by omega) (by omega) ho g hg, Option.map_some]

theorem ikm_keys (out ikm salt : List UInt8) (ho : out.length = 32 * 255) : Keys.ikmToLamportSk out ikm salt =
      some (Rfc.expand H (Rfc.extract H salt ikm) [] (32 * 255)) := by
  unfold Keys.ikmToLamportSk
  generalize hL : 32 * 255 = L at ho ⊢
  rw [Keys.extractExpand_eq hH out ikm salt [] L (by omega) (by omega) ho, Option.map_some]

/-- With an allocator that never fails `parent_sk_to_lamport_pk` is the function of EIP-2333. -/
theorem lamport_good (e : Env) (he : ∀ n, e.grants n = true) (sk : List UInt64) (hs : sk.length = 4) (i : UInt32) (h : Heap)
    (hf : Fresh h) : ∃ k, h.calls ≤ k ∧
    parentSkToLamportPk e sk i h = some (KeyGen.lamportPk H (wordsVal sk) i.toNat, ⟨k, h.blocks⟩) := by
  have hl : ∀ f, (array (32 * 255) f).length = 32 * 255 := array_length _
  have hl' : ∀ f, (array (32 * 255) f).length = 8160 := fun f => (hl f).trans (by norm_num)
  have key := Keys.lamport_eq hH (array (32 * 255) (fun _ => 0)) (array (32 * 255) (fun _ => 0)) (hl' _) (hl' _) sk hs i
  rw [keys_lamport_of _ _ sk i _ _ (ikm_keys hH _ _ _ (hl _)) (ikm_keys hH _ _ _ (hl _)), Option.some.injEq] at key
  have hf' : Fresh ⟨h.calls + 3 + (32 * 255 + 31) / 32, h.blocks⟩ :=
    fun x hx => lt_of_lt_of_le (hf x hx) (by dsimp only; omega)
  have run := lamport_of e sk i _ _ h _ _ (ikm_run hH e he _ _ _ h (hl _) hf) (ikm_run hH e he _ _ _ _ (hl _) hf')
  rw [key] at run
  exact ⟨h.calls + 3 + (32 * 255 + 31) / 32 + 3 + (32 * 255 + 31) / 32, by omega, run⟩

/-- Whatever the allocator does, `parent_sk_to_lamport_pk` gives back its blocks. -/
theorem lamport_blocks (e : Env) (sk : List UInt64) (i : UInt32) (h : Heap) (hf : Fresh h) {r : List UInt8 × Heap}
    (hr : parentSkToLamportPk e sk i h = some r) : r.2.blocks = h.blocks ∧ Fresh r.2 ∧ r.1.length = 32 := by
  unfold parentSkToLamportPk at hr
  dsimp only at hr
  obtain ⟨x, hx, hr⟩ := Option.bind_eq_some_iff.1 hr
  obtain ⟨y, hy, rfl⟩ := Option.map_eq_some_iff.1 hr
  unfold ikmToLamportSk at hx hy
  obtain ⟨x, hx', rfl⟩ := Option.map_eq_some_iff.1 hx
  obtain ⟨y, hy', rfl⟩ := Option.map_eq_some_iff.1 hy
  obtain ⟨h1, h2, _⟩ := extractExpand_blocks hH e _ _ _ [] _ (by norm_num) (by norm_num) (array_length _ _) h hf hx'
  obtain ⟨h3, h4, _⟩ := extractExpand_blocks hH e _ _ _ [] _ (by norm_num) (by norm_num) (array_length _ _) _ h2 hy'
  exact ⟨h3.trans h1, h4, Sha256.hash_length _⟩

end

end Bls.Malloc
