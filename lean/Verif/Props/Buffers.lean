import Verif.Proof.Buffers
import Verif.Proof.Keys

/-!
# C102: buffers of the hash functions that overlap

The caller's memory is `m .caller`, a function from addresses to bytes; pointers are addresses `⟨.caller, a⟩`.
`Rfc.Wrote f f' a v`: from `f` to `f'` exactly the bytes from `a` on have become `v`. `Rfc.Apart`: ranges without a common address
(`Spec/Buffers.lean`).
-/

namespace Bls.Props
open Bls Buffers Rfc

variable {H : List UInt8 → List UInt8} (hH : ∀ m, Fips.IsSha256 m (H m))

private theorem arg (a : ℕ) : Arg (⟨.caller, a⟩ : Ptr).obj := Or.inl rfl

include hH

/-- C102: with a key of at most 64 bytes `hkdf256_hmac` stores the HMAC of the bytes that were in the buffers before the call,
wherever key, message and output lie; nothing else in the caller's memory changes. -/
theorem C102_hmac (m : Mem) (mac inp inLen key keyLen : ℕ) (hk : keyLen ≤ 64) :
    ∃ m', Buffers.hmac ⟨.caller, mac⟩ ⟨.caller, inp⟩ inLen ⟨.caller, key⟩ keyLen m = some m' ∧
      Wrote (m .caller) (m' .caller) mac (Rfc.hmac H (bytes (m .caller) key keyLen) (bytes (m .caller) inp inLen)) := by
  obtain ⟨m', e1, e2⟩ := hmac_mem hH ⟨.caller, mac⟩ ⟨.caller, inp⟩ inLen ⟨.caller, key⟩ keyLen m (arg _).outer (arg _).outer
    (arg _).outer hk
  exact ⟨m', e1, wrote m m' mac _ (e2 _ (arg 0).outer)⟩

omit hH in
/-- C102: with a longer key `hkdf256_hmac` copies the array `_key` onto itself, which ISO C leaves undefined; so do
`hkdf256_extract` and `hkdf256_extract_expand` with a longer salt. -/
theorem C102_long (m : Mem) (out inp inLen key keyLen L info infoLen : ℕ) (hk : 64 < keyLen) :
    Buffers.hmac ⟨.caller, out⟩ ⟨.caller, inp⟩ inLen ⟨.caller, key⟩ keyLen m = none ∧
    Buffers.extract ⟨.caller, out⟩ ⟨.caller, key⟩ keyLen ⟨.caller, inp⟩ inLen m = none ∧
    Buffers.extractExpand ⟨.caller, out⟩ L ⟨.caller, inp⟩ inLen ⟨.caller, key⟩ keyLen ⟨.caller, info⟩ infoLen m = none := by
  refine ⟨hmac_long _ _ _ _ _ m hk, hmac_long _ _ _ _ _ m hk, ?_⟩
  rw [Buffers.extractExpand, Buffers.extract, hmac_long _ _ _ _ _ m hk]
  rfl

/-- C102: `hkdf256_extract` with a salt of at most 64 bytes. -/
theorem C102_extract (m : Mem) (prk salt saltLen ikm ikmLen : ℕ) (hk : saltLen ≤ 64) :
    ∃ m', Buffers.extract ⟨.caller, prk⟩ ⟨.caller, salt⟩ saltLen ⟨.caller, ikm⟩ ikmLen m = some m' ∧
      Wrote (m .caller) (m' .caller) prk (Rfc.extract H (bytes (m .caller) salt saltLen) (bytes (m .caller) ikm ikmLen)) :=
  C102_hmac hH m prk ikm ikmLen salt saltLen hk

/-- C102: `hkdf256_expand` is HKDF-Expand if the output meets neither `prk` nor `info`, or has at most 32 bytes. -/
theorem C102_expand (m : Mem) (okm L prk info infoLen : ℕ) (hL : 1 ≤ L) (hL' : L ≤ 8160)
    (hd : L ≤ 32 ∨ (Apart okm L prk 32 ∧ Apart okm L info infoLen)) :
    ∃ m', Buffers.expand ⟨.caller, okm⟩ L ⟨.caller, prk⟩ ⟨.caller, info⟩ infoLen m = some (0, m') ∧
      Wrote (m .caller) (m' .caller) okm (Rfc.expand H (bytes (m .caller) prk 32) (bytes (m .caller) info infoLen) L) := by
  obtain ⟨m', e1, e2⟩ := expand_mem hH ⟨.caller, okm⟩ L ⟨.caller, prk⟩ ⟨.caller, info⟩ infoLen m (arg _) (arg _) (arg _) hL hL'
    (hd.imp_right fun h => ⟨fun _ => h.1, fun _ => h.2⟩)
  exact ⟨m', e1, wrote m m' okm _ (e2 _ (arg 0))⟩

/-- C102: `hkdf256_expand` for every placement. The output is written in blocks of 32 bytes, and each block is computed from `prk`
and `info` as the blocks before it have left them. -/
theorem C102_expand_overlap (m : Mem) (okm L prk info infoLen : ℕ) (hL : 1 ≤ L) (hL' : L ≤ 8160) :
    ∃ (m' : Mem) (M : ℕ → ℕ → UInt8) (T : ℕ → List UInt8),
      Buffers.expand ⟨.caller, okm⟩ L ⟨.caller, prk⟩ ⟨.caller, info⟩ infoLen m = some (0, m') ∧
      M 0 = m .caller ∧ T 0 = [] ∧ M ((L + 31) / 32) = m' .caller ∧
      ∀ n, 32 * n < L →
        T (n + 1) = Rfc.hmac H (bytes (M n) prk 32) (T n ++ bytes (M n) info infoLen ++ [UInt8.ofNat (n + 1)]) ∧
        Wrote (M n) (M (n + 1)) (okm + 32 * n) ((T (n + 1)).take (L - 32 * n)) := by
  obtain ⟨m', e1, e2⟩ := expand_run hH ⟨.caller, okm⟩ L ⟨.caller, prk⟩ ⟨.caller, info⟩ infoLen m (arg _) (arg _) (arg _) hL hL'
  set R := run H ⟨.caller, okm⟩ L ⟨.caller, prk⟩ ⟨.caller, info⟩ infoLen m with hR
  refine ⟨m', fun n => (R n).1 .caller, fun n => (R n).2, e1, rfl, rfl, (e2 _ (arg 0)).symm, fun n hn => ⟨rfl, ?_⟩⟩
  have ht : ∀ t : List UInt8, t.length = 32 → t.take (min 32 (L - 32 * n)) = t.take (L - 32 * n) := fun t h => by
    rw [List.take_eq_take_iff]; omega
  refine wrote (R n).1 (R (n + 1)).1 _ _ ?_
  dsimp only
  rw [← ht _ (run_length hH _ _ _ _ _ _ _)]
  rfl

/-- C102: `hkdf256_extract_expand` with a salt of at most 64 bytes. Key and salt may overlap with the output. -/
theorem C102_extract_expand (m : Mem) (out L key keyLen salt saltLen info infoLen : ℕ) (hs : saltLen ≤ 64) (hL : 1 ≤ L)
    (hL' : L ≤ 8160) (hd : L ≤ 32 ∨ Apart out L info infoLen) :
    ∃ m', Buffers.extractExpand ⟨.caller, out⟩ L ⟨.caller, key⟩ keyLen ⟨.caller, salt⟩ saltLen ⟨.caller, info⟩ infoLen m =
        some (0, m') ∧
      Wrote (m .caller) (m' .caller) out (Rfc.expand H (Rfc.extract H (bytes (m .caller) salt saltLen) (bytes (m .caller) key keyLen))
        (bytes (m .caller) info infoLen) L) := by
  obtain ⟨m1, e1, e2⟩ := hmac_mem hH ⟨.prk, 0⟩ ⟨.caller, key⟩ keyLen ⟨.caller, salt⟩ saltLen m (Arg.outer (Or.inr rfl))
    (arg _).outer (arg _).outer hs
  obtain ⟨m', f1, f2⟩ := expand_mem hH ⟨.caller, out⟩ L ⟨.prk, 0⟩ ⟨.caller, info⟩ infoLen m1 (arg _) (Or.inr rfl) (arg _) hL hL'
    (hd.imp_right fun h => ⟨fun e => absurd (show Obj.prk = Obj.caller from e) (by decide), fun _ => h⟩)
  have ec : m1 .caller = m .caller := (e2 _ (arg 0).outer).trans (store_obj (by decide))
  have ep : load m1 ⟨.prk, 0⟩ 32 = Rfc.extract H (bytes (m .caller) salt saltLen) (bytes (m .caller) key keyLen) := by
    rw [load_obj 32 (e2 .prk (Arg.outer (Or.inr rfl)))]
    exact load_store m ⟨.prk, 0⟩ _ 32 (Hash.hmac_length hH _ _).symm
  rw [ep] at f2
  refine ⟨m', by rw [Buffers.extractExpand, Buffers.extract, e1, Option.bind_some, f1], ?_⟩
  have := wrote m1 m' out _ (f2 _ (arg 0))
  rw [ec] at this
  rw [show load m1 ⟨.caller, info⟩ infoLen = bytes (m .caller) info infoLen from load_obj _ ec] at this
  exact this

/-- C102: `xmd_sh256` is `expand_message_xmd` if the output does not meet the tag, or has at most 32 bytes. The message may overlap
with the output. -/
theorem C102_xmd (m : Mem) (buf L inp inLen dst dstLen : ℕ) (hL : L ≤ 8160) (hdl : dstLen ≤ 255)
    (hd : L ≤ 32 ∨ Apart buf L dst dstLen) :
    ∃ m' out, Buffers.xmd ⟨.caller, buf⟩ L ⟨.caller, inp⟩ inLen ⟨.caller, dst⟩ dstLen m = some (0, m') ∧
      Rfc.expandMessageXmd H (bytes (m .caller) inp inLen) (bytes (m .caller) dst dstLen) L = some out ∧
      Wrote (m .caller) (m' .caller) buf out := by
  obtain ⟨m', out, e1, e2, e3⟩ := xmd_mem hH ⟨.caller, buf⟩ L ⟨.caller, inp⟩ inLen ⟨.caller, dst⟩ dstLen m (arg _) (arg _) (arg _) hL
    hdl (hd.imp_right fun h _ => h)
  exact ⟨m', out, e1, e2, wrote m m' buf _ (e3 _ (arg 0))⟩

/-- C102: `xmd_sh256` for every placement: each block is computed from the tag as the blocks before it have left it. -/
theorem C102_xmd_overlap (m : Mem) (buf L inp inLen dst dstLen : ℕ) (hL : L ≤ 8160) (hdl : dstLen ≤ 255) :
    ∃ (m' : Mem) (M : ℕ → ℕ → UInt8) (B : ℕ → List UInt8),
      Buffers.xmd ⟨.caller, buf⟩ L ⟨.caller, inp⟩ inLen ⟨.caller, dst⟩ dstLen m = some (0, m') ∧
      M 0 = m .caller ∧ B 0 = List.replicate 32 0 ∧ M ((L + 31) / 32) = m' .caller ∧
      ∀ n, 32 * n < L →
        B (n + 1) = H (List.zipWith (· ^^^ ·)
            (H (List.replicate 64 0 ++ bytes (m .caller) inp inLen ++ Fips.be 2 L ++ Fips.be 1 0 ++
              (bytes (m .caller) dst dstLen ++ Fips.be 1 dstLen)))
            (B n) ++ [UInt8.ofNat (n + 1)] ++ (bytes (M n) dst dstLen ++ [UInt8.ofNat dstLen])) ∧
        Wrote (M n) (M (n + 1)) (buf + 32 * n) ((B (n + 1)).take (L - 32 * n)) := by
  obtain ⟨m', m1, e1, f1, e2⟩ := xmd_run hH ⟨.caller, buf⟩ L ⟨.caller, inp⟩ inLen ⟨.caller, dst⟩ dstLen m (arg _) (arg _) (arg _) hL hdl
  set R := xrun H ⟨.caller, buf⟩ L ⟨.caller, dst⟩ dstLen (xb0 H (load m ⟨.caller, inp⟩ inLen) (load m ⟨.caller, dst⟩ dstLen) L) m1
    with hR
  refine ⟨m', fun n => (R n).1 .caller, fun n => (R n).2, e1, f1 _ (arg 0), rfl, (e2 _ (arg 0)).symm, fun n hn => ⟨?_, ?_⟩⟩
  · have : xb0 H (load m ⟨.caller, inp⟩ inLen) (load m ⟨.caller, dst⟩ dstLen) L =
        H (List.replicate 64 0 ++ bytes (m .caller) inp inLen ++ Fips.be 2 L ++ Fips.be 1 0 ++
          (bytes (m .caller) dst dstLen ++ Fips.be 1 dstLen)) := by
      rw [xb0, load_length]
      rfl
    rw [← this]
    rfl
  · have ht : ∀ t : List UInt8, t.length = 32 → t.take (min 32 (L - 32 * n)) = t.take (L - 32 * n) := fun t h => by
      rw [List.take_eq_take_iff]; omega
    refine wrote (R n).1 (R (n + 1)).1 _ _ ?_
    dsimp only
    rw [← ht (R (n + 1)).2 (Hash.length_sha hH _)]
    rfl

/-! ## Outputs that meet `info`, `prk` or the tag -/

omit hH in
/-- What `hkdf256_expand` would have to do for an output that may meet `info`. -/
def C102_info_full (H : List UInt8 → List UInt8) : Prop := ∀ (m m' : Mem) (okm L prk info infoLen : ℕ),
  Apart okm L prk 32 → Buffers.expand ⟨.caller, okm⟩ L ⟨.caller, prk⟩ ⟨.caller, info⟩ infoLen m = some (0, m') →
    bytes (m' .caller) okm L = Rfc.expand H (bytes (m .caller) prk 32) (bytes (m .caller) info infoLen) L

omit hH in
/-- What `hkdf256_expand` would have to do for an output that may meet `prk`. -/
def C102_prk_full (H : List UInt8 → List UInt8) : Prop := ∀ (m m' : Mem) (okm L prk info infoLen : ℕ),
  Apart okm L info infoLen → Buffers.expand ⟨.caller, okm⟩ L ⟨.caller, prk⟩ ⟨.caller, info⟩ infoLen m = some (0, m') →
    bytes (m' .caller) okm L = Rfc.expand H (bytes (m .caller) prk 32) (bytes (m .caller) info infoLen) L

omit hH in
/-- What `xmd_sh256` would have to do for an output that may meet the tag. -/
def C102_tag_full (H : List UInt8 → List UInt8) : Prop := ∀ (m m' : Mem) (buf L inp inLen dst dstLen : ℕ),
  Buffers.xmd ⟨.caller, buf⟩ L ⟨.caller, inp⟩ inLen ⟨.caller, dst⟩ dstLen m = some (0, m') →
    Rfc.expandMessageXmd H (bytes (m .caller) inp inLen) (bytes (m .caller) dst dstLen) L = some (bytes (m' .caller) buf L)

omit hH in
private theorem bytes_ext {f g : ℕ → UInt8} {a n : ℕ} (h : ∀ x, a ≤ x → x < a + n → f x = g x) : bytes f a n = bytes g a n :=
  List.map_congr_left fun i hi => h _ (by omega) (by have := List.mem_range.1 hi; omega)

omit hH in
private theorem bytes_add (f : ℕ → UInt8) (a n k : ℕ) : bytes f a (n + k) = bytes f a n ++ bytes f (a + n) k := by
  simp only [bytes, List.range_add, List.map_append, List.map_map]
  congr 1
  exact List.map_congr_left fun i _ => by simp [Nat.add_assoc]

omit hH in
private theorem take_first {f : ℕ → UInt8} {a n k : ℕ} {v : List UInt8} (h : bytes f a n = v) (hk : k ≤ n) : bytes f a k = v.take k := by
  rw [← h, ← Nat.add_sub_cancel' hk, bytes_add, List.take_left' (by simp [bytes])]

private theorem hash_unique : H = fun m => Sha256.hash [m] := funext fun m => by
  have := Hash.hash_sha hH [m]
  rw [List.flatten_singleton] at this
  exact this.symm

/-- The first block for a `prk` of zeros and the byte zero as `info`. -/
private def t1 : List UInt8 := [127, 182, 50, 10, 195, 107, 68, 83, 10, 255, 194, 241, 70, 34, 49, 34, 255, 40, 247, 82, 173, 234, 51, 214, 17, 102, 236, 182, 103, 168, 49, 41]

omit hH in
private theorem t1_eq : Rfc.hmac (fun m => Sha256.hash [m]) (List.replicate 32 0) ([] ++ [0] ++ [1]) = t1 := by decide +kernel

omit hH in
private theorem t2_eq : Rfc.hmac (fun m => Sha256.hash [m]) (List.replicate 32 0) (t1 ++ [0] ++ [2]) = [181, 71, 240, 222, 7, 164, 31, 240, 161, 99, 50, 103, 120, 135, 125, 152, 118, 136, 67, 207, 177, 75, 233, 170, 169, 93, 54, 97, 136, 165, 227, 126] := by
  decide +kernel

omit hH in
private theorem rfc_eq : bytes (fun _ => 0) 0 32 = List.replicate 32 0 ∧ bytes (fun _ => 0) 0 1 = [0] ∧
    (Rfc.expand (fun m => Sha256.hash [m]) (List.replicate 32 0) [0] 64).drop 32 = [181, 71, 240, 222, 7, 164, 31, 240, 161, 99, 50, 103, 120, 135, 125, 152, 118, 136, 67, 207, 177, 75, 233, 170, 169, 93, 54, 97, 136, 165, 227, 126] := by
  refine ⟨by decide, by decide, ?_⟩
  have e : Rfc.expand (fun m => Sha256.hash [m]) (List.replicate 32 0) [0] 64 =
      (Rfc.T (fun m => Sha256.hash [m]) (List.replicate 32 0) [0] 1 ++ Rfc.T (fun m => Sha256.hash [m]) (List.replicate 32 0) [0] 2).take 64 := by
    rw [Rfc.expand, show (64 + 31) / 32 = 2 from rfl]
    simp [List.range_succ]
  have e1 : Rfc.T (fun m => Sha256.hash [m]) (List.replicate 32 0) [0] 1 = t1 := t1_eq
  have e2 : Rfc.T (fun m => Sha256.hash [m]) (List.replicate 32 0) [0] 2 = [181, 71, 240, 222, 7, 164, 31, 240, 161, 99, 50, 103, 120, 135, 125, 152, 118, 136, 67, 207, 177, 75, 233, 170, 169, 93, 54, 97, 136, 165, 227, 126] := by
    rw [Rfc.T, e1]
    exact t2_eq
  rw [e, e1, e2]
  rfl

/-- C102: an output of 64 bytes that begins at the only byte of `info`: the second block is wrong. -/
theorem C102_info_false : ¬ C102_info_full H := by
  intro hf
  obtain ⟨m', M, T, h1, h2, h3, h4, h5⟩ := C102_expand_overlap hH (fun _ _ => 0) 0 64 1000 0 1 (by decide) (by decide)
  have h := hf _ m' 0 64 1000 0 1 (fun x _ _ _ _ => by omega) h1
  rw [hash_unique hH] at h h5
  obtain ⟨a1, a2, a3⟩ := h5 0 (by decide)
  obtain ⟨b1, b2, b3⟩ := h5 1 (by decide)
  have z : ∀ a n, bytes (fun _ => 0) a n = List.replicate n 0 := fun a n => by simp [bytes, List.map_const']
  simp only [h2, h3, z, List.replicate_one] at a1 h
  rw [show T (0 + 1) = t1 from a1.trans t1_eq] at a2 a3 b1
  have c1 : bytes (M 1) 1000 32 = List.replicate 32 0 := by
    rw [← z 1000 32]
    refine bytes_ext fun x hx hx' => ?_
    rw [a3 x (Or.inr (by have : (t1.take (64 - 32 * 0)).length = 32 := rfl
                         omega)), h2]
  have c2 : bytes (M 1) 0 1 = [127] := take_first (v := t1) (n := 32) a2 (by decide)
  rw [c1, c2] at b1
  have d := (show T 2 = _ from b1).trans (show Rfc.hmac (fun m => Sha256.hash [m]) (List.replicate 32 0)
    (t1 ++ [127] ++ [UInt8.ofNat (1 + 1)]) = [207, 226, 243, 20, 39, 186, 146, 20, 134, 188, 53, 133, 191, 35, 6, 131, 77, 28, 217, 210, 57, 46, 87, 91, 15, 196, 173, 14, 58, 172, 210, 167] by decide +kernel)
  rw [show T (1 + 1) = _ from d] at b2
  have e : bytes (m' .caller) 32 32 = [207, 226, 243, 20, 39, 186, 146, 20, 134, 188, 53, 133, 191, 35, 6, 131, 77, 28, 217, 210, 57, 46, 87, 91, 15, 196, 173, 14, 58, 172, 210, 167] := by rw [← h4]; exact b2
  have e' := congrArg (List.drop 32) h
  rw [rfc_eq.2.2, show (64 : ℕ) = 32 + 32 from rfl, bytes_add, List.drop_left' (by simp [bytes])] at e'
  exact absurd (e.symm.trans e') (by decide)

/-- C102: an output of 64 bytes on top of `prk`: the second block is wrong. -/
theorem C102_prk_false : ¬ C102_prk_full H := by
  intro hf
  obtain ⟨m', M, T, h1, h2, h3, h4, h5⟩ := C102_expand_overlap hH (fun _ _ => 0) 0 64 0 1000 1 (by decide) (by decide)
  have h := hf _ m' 0 64 0 1000 1 (fun x _ _ _ _ => by omega) h1
  rw [hash_unique hH] at h h5
  obtain ⟨a1, a2, a3⟩ := h5 0 (by decide)
  obtain ⟨b1, b2, b3⟩ := h5 1 (by decide)
  have z : ∀ a n, bytes (fun _ => 0) a n = List.replicate n 0 := fun a n => by simp [bytes, List.map_const']
  simp only [h2, h3, z, List.replicate_one] at a1 h
  rw [show T (0 + 1) = t1 from a1.trans t1_eq] at a2 a3 b1
  have c1 : bytes (M 1) 1000 1 = [0] := by
    rw [show [(0 : UInt8)] = List.replicate 1 0 from rfl, ← z 1000 1]
    refine bytes_ext fun x hx hx' => ?_
    rw [a3 x (Or.inr (by have : (t1.take (64 - 32 * 0)).length = 32 := rfl
                         omega)), h2]
  have c2 : bytes (M 1) 0 32 = t1 := a2
  rw [c1, c2] at b1
  have d := (show T 2 = _ from b1).trans (show Rfc.hmac (fun m => Sha256.hash [m]) t1
    (t1 ++ [0] ++ [UInt8.ofNat (1 + 1)]) = [96, 121, 29, 45, 137, 11, 140, 140, 57, 72, 0, 67, 178, 57, 67, 7, 131, 100, 150, 132, 110, 33, 56, 3, 97, 248, 101, 89, 252, 101, 215, 91] by decide +kernel)
  rw [show T (1 + 1) = _ from d] at b2
  have e : bytes (m' .caller) 32 32 = [96, 121, 29, 45, 137, 11, 140, 140, 57, 72, 0, 67, 178, 57, 67, 7, 131, 100, 150, 132, 110, 33, 56, 3, 97, 248, 101, 89, 252, 101, 215, 91] := by rw [← h4]; exact b2
  have e' := congrArg (List.drop 32) h
  rw [rfc_eq.2.2, show (64 : ℕ) = 32 + 32 from rfl, bytes_add, List.drop_left' (by simp [bytes])] at e'
  exact absurd (e.symm.trans e') (by decide)

/-- `b_0` and `b_1` for the empty message, the tag of one zero byte and 64 bytes. -/
private def b0 : List UInt8 := [242, 231, 22, 142, 42, 25, 223, 130, 79, 106, 150, 112, 170, 155, 29, 76, 253, 38, 210, 239, 195, 118, 9, 184, 234, 219, 45, 225, 210, 101, 186, 54]
private def b1 : List UInt8 := [192, 127, 102, 70, 175, 131, 199, 79, 189, 126, 63, 148, 206, 87, 103, 141, 145, 74, 69, 17, 233, 180, 229, 9, 93, 89, 215, 218, 105, 205, 208, 142]

omit hH in
private theorem b0_eq : Sha256.hash [List.replicate 64 0 ++ [] ++ Fips.be 2 64 ++ Fips.be 1 0 ++ ([0] ++ Fips.be 1 1)] = b0 := by
  decide +kernel

omit hH in
private theorem b1_eq : Sha256.hash [b0 ++ [1] ++ ([0] ++ [1])] = b1 := by decide +kernel

/-- C102: an output of 64 bytes that begins at the only byte of the tag: the second block is wrong. -/
theorem C102_tag_false : ¬ C102_tag_full H := by
  intro hf
  obtain ⟨m', M, B, h1, h2, h3, h4, h5⟩ := C102_xmd_overlap hH (fun _ _ => 0) 0 64 1000 0 0 1 (by decide) (by decide)
  have h := hf _ m' 0 64 1000 0 0 1 h1
  rw [hash_unique hH] at h h5
  obtain ⟨a1, a2, a3⟩ := h5 0 (by decide)
  obtain ⟨c1, c2, c3⟩ := h5 1 (by decide)
  have z : ∀ a n, bytes (fun _ => 0) a n = List.replicate n 0 := fun a n => by simp [bytes, List.map_const']
  simp only [h2, h3, z, List.replicate_zero, List.replicate_one] at a1 c1 h
  rw [b0_eq] at a1 c1
  rw [show List.zipWith (· ^^^ ·) b0 (List.replicate 32 0) = b0 by decide] at a1
  rw [show B (0 + 1) = b1 from a1.trans b1_eq] at a2 a3 c1
  have d1 : bytes (M 1) 0 1 = [192] := take_first (v := b1) (n := 32) a2 (by decide)
  rw [d1] at c1
  have d := (show B 2 = _ from c1).trans (show Sha256.hash [List.zipWith (· ^^^ ·) b0 b1 ++ [UInt8.ofNat (1 + 1)] ++
    ([192] ++ [UInt8.ofNat 1])] = [122, 246, 43, 156, 14, 233, 55, 210, 171, 23, 193, 131, 75, 80, 36, 12, 133, 45, 6, 183, 21, 183, 248, 206, 230, 15, 116, 107, 110, 126, 122, 116] by decide +kernel)
  rw [show B (1 + 1) = _ from d] at c2
  have e : bytes (m' .caller) 32 32 = [122, 246, 43, 156, 14, 233, 55, 210, 171, 23, 193, 131, 75, 80, 36, 12, 133, 45, 6, 183, 21, 183, 248, 206, 230, 15, 116, 107, 110, 126, 122, 116] := by rw [← h4]; exact c2
  rw [Rfc.expandMessageXmd] at h
  dsimp only at h
  rw [if_neg (by decide), Option.some.injEq, show [(0 : UInt8)].length = 1 from rfl, b0_eq] at h
  have e2 : ((List.range ((64 + 31) / 32)).map (Rfc.xmdBlock (fun m => Sha256.hash [m]) b0 ([0] ++ Fips.be 1 1))).flatten =
      b1 ++ [193, 160, 147, 19, 108, 64, 2, 195, 141, 199, 241, 24, 252, 178, 63, 12, 37, 202, 144, 82, 200, 107, 47, 237, 214, 163, 38, 237, 201, 70, 124, 168] := by
    rw [show (64 + 31) / 32 = 2 from rfl]
    have f1 : Rfc.xmdBlock (fun m => Sha256.hash [m]) b0 ([0] ++ Fips.be 1 1) 0 = b1 := by
      rw [Rfc.xmdBlock, show Fips.be 1 1 = [1] by decide]
      exact b1_eq
    have f2 : Rfc.xmdBlock (fun m => Sha256.hash [m]) b0 ([0] ++ Fips.be 1 1) 1 = [193, 160, 147, 19, 108, 64, 2, 195, 141, 199, 241, 24, 252, 178, 63, 12, 37, 202, 144, 82, 200, 107, 47, 237, 214, 163, 38, 237, 201, 70, 124, 168] := by
      rw [Rfc.xmdBlock, f1]
      decide +kernel
    rw [show List.range 2 = [0, 1] from rfl, List.map_cons, List.map_cons, List.map_nil, f1, f2, List.flatten_cons, List.flatten_cons,
      List.flatten_nil, List.append_nil]
  have e' := congrArg (List.drop 32) h
  rw [e2, show (64 : ℕ) = 32 + 32 from rfl, bytes_add, List.drop_left' (i := 32) (by simp [bytes]), e] at e'
  exact absurd e' (by decide)

/-! ## Cases -/

omit hH in
/-- A memory in which every byte is its address; the output of HMAC lies on its key, inside its message. -/
example (hH : ∀ m, Fips.IsSha256 m (H m)) : let m : Mem := fun _ a => UInt8.ofNat a
    ∃ m', Buffers.hmac ⟨.caller, 10⟩ ⟨.caller, 0⟩ 100 ⟨.caller, 10⟩ 32 m = some m' ∧ m' .caller 5 = 5 ∧ m' .caller 42 = 42 ∧
      bytes (m' .caller) 10 32 = Rfc.hmac H (bytes (m .caller) 10 32) (bytes (m .caller) 0 100) := by
  intro m
  obtain ⟨m', h1, h2, h3⟩ := C102_hmac hH m 10 0 100 10 32 (by decide)
  rw [show (Rfc.hmac H (bytes (m .caller) 10 32) (bytes (m .caller) 0 100)).length = 32 from Hash.hmac_length hH _ _] at h2 h3
  exact ⟨m', h1, h3 5 (by decide), h3 42 (by decide), h2⟩

omit hH in
/-- A key of 65 bytes, and one of 64. -/
example (hH : ∀ m, Fips.IsSha256 m (H m)) (m : Mem) : Buffers.hmac ⟨.caller, 0⟩ ⟨.caller, 0⟩ 100 ⟨.caller, 10⟩ 65 m = none ∧
    Buffers.hmac ⟨.caller, 0⟩ ⟨.caller, 0⟩ 100 ⟨.caller, 10⟩ 64 m ≠ none := by
  obtain ⟨m', h, -⟩ := C102_hmac hH m 0 0 100 10 64 (by decide)
  exact ⟨(C102_long m 0 0 100 10 65 0 0 0 (by decide)).1, by rw [h]; exact Option.some_ne_none _⟩

omit hH in
/-- 48 bytes of output on key and salt, apart from `info`; a message of 20 bytes inside an output of 48 bytes. -/
example : Apart 0 48 48 2 ∧ (20 ≤ 64 ∧ 1 ≤ 48 ∧ 48 ≤ 8160) ∧ Apart 0 48 100 43 ∧ ¬ Apart 0 48 5 20 := by
  refine ⟨fun x _ _ _ _ => by omega, by decide, fun x _ _ _ _ => by omega, fun h => h 5 (by decide) (by decide) (by decide) (by decide)⟩

/-- Memory in which every byte is its address. A key of 48 bytes is expanded onto itself, with the salt inside it and `info` behind. -/
example : let m : Mem := fun _ a => UInt8.ofNat a
    ∃ m', Buffers.extractExpand ⟨.caller, 0⟩ 48 ⟨.caller, 0⟩ 48 ⟨.caller, 10⟩ 20 ⟨.caller, 48⟩ 2 m = some (0, m') ∧
      m' .caller 48 = 48 ∧
      bytes (m' .caller) 0 48 = Rfc.expand H (Rfc.extract H (bytes (m .caller) 10 20) (bytes (m .caller) 0 48)) [48, 49] 48 := by
  intro m
  obtain ⟨m', h1, h2, h3⟩ := C102_extract_expand hH m 0 48 0 48 10 20 48 2 (by decide) (by decide) (by decide)
    (Or.inr fun x _ _ _ _ => by omega)
  have l : (Rfc.expand H (Rfc.extract H (bytes (m .caller) 10 20) (bytes (m .caller) 0 48)) (bytes (m .caller) 48 2) 48).length = 48 :=
    Keys.expand_length hH _ _ _
  rw [l] at h2 h3
  exact ⟨m', h1, h3 48 (by decide), h2⟩

/-- An output of 20 bytes on `prk` and `info`, and the digest of a salt and a key that overlap. -/
example (m : Mem) :
    (∃ m', Buffers.expand ⟨.caller, 0⟩ 20 ⟨.caller, 0⟩ ⟨.caller, 5⟩ 40 m = some (0, m') ∧ m' .caller 20 = m .caller 20) ∧
    ∃ m', Buffers.extract ⟨.caller, 0⟩ ⟨.caller, 5⟩ 20 ⟨.caller, 10⟩ 20 m = some m' ∧ m' .caller 32 = m .caller 32 := by
  obtain ⟨m1, a1, -, a3⟩ := C102_expand hH m 0 20 0 5 40 (by decide) (by decide) (Or.inl (by decide))
  obtain ⟨m2, b1, -, b3⟩ := C102_extract hH m 0 5 20 10 20 (by decide)
  rw [Keys.expand_length hH _ _ _] at a3
  rw [show (Rfc.extract H (bytes (m .caller) 5 20) (bytes (m .caller) 10 20)).length = 32 from Hash.hmac_length hH _ _] at b3
  exact ⟨⟨m1, a1, a3 20 (by decide)⟩, m2, b1, b3 32 (by decide)⟩

/-- The message inside the output, the tag behind it. -/
example (m : Mem) :
    ∃ m' out, Buffers.xmd ⟨.caller, 0⟩ 256 ⟨.caller, 5⟩ 20 ⟨.caller, 256⟩ 43 m = some (0, m') ∧
      Rfc.expandMessageXmd H (bytes (m .caller) 5 20) (bytes (m .caller) 256 43) 256 = some out ∧
      Wrote (m .caller) (m' .caller) 0 out :=
  C102_xmd hH m 0 256 5 20 256 43 (by decide) (by decide) (Or.inr fun x _ _ _ _ => by omega)

end Bls.Props
