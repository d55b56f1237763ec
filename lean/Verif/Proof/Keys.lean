import Verif.Model.Keys
import Verif.Spec.Keys
import Verif.Proof.Hash
import Verif.Proof.Division
import Verif.Proof.Codec
import Verif.Proof.ScalarArith
import Verif.Proof.Compressed
import Verif.Proof.NatEval
import Mathlib.Algebra.BigOperators.Fin
import Mathlib.GroupTheory.OrderOfElement

/-! Key functions. -/

namespace Bls.Keys

open Bls Scalar

theorem Q_val : wordsVal FpC.Q = q := by decide +kernel

/-- Division by the group order. -/
theorem divQ (a : List UInt64) (h : 4 ≤ a.length) : ∃ c d, Division.divnSafe a FpC.Q = some (c, d) ∧ d.length = 4 ∧
    wordsVal d = wordsVal a % q := by
  obtain ⟨c, d, h1, _, h3, _, h5⟩ := Division.divnSafe_spec a FpC.Q h (by simp [FpC.Q]) (by decide +kernel) (by decide +kernel)
  exact ⟨c, d, h1, h3, by rw [h5, Q_val]⟩

theorem equal_zero {sk : List UInt64} (h : sk.length = 4) : Scalar.equal sk [0, 0, 0, 0] = true ↔ wordsVal sk = 0 := by
  rw [equal_spec sk [0, 0, 0, 0] h]
  constructor
  · rintro rfl; rfl
  · intro h0; exact wordsVal_inj h (h0.trans (by rfl))

section
variable {H : List UInt8 → List UInt8} (hH : ∀ m, Fips.IsSha256 m (H m))
include hH

theorem expand_length (prk info : List UInt8) (L : ℕ) : (Rfc.expand H prk info L).length = L := by
  have := Hash.blocks_length (fun i => Rfc.T H prk info (i + 1)) (fun i => Hash.T_length hH prk info i) ((L + 31) / 32)
  rw [Hash.blocks] at this
  rw [Rfc.expand, List.length_take, this]; omega

theorem extractExpand_eq (out key salt info : List UInt8) (L : ℕ) (hL : 1 ≤ L) (hL' : L ≤ 8160) (hok : out.length = L) :
    Hash.extractExpand out L key salt info = some (0, Rfc.expand H (Rfc.extract H salt key) info L) := by
  rw [Hash.extractExpand, Hash.extract, Hash.hmac_eq hH, Hash.expand_eq hH out _ info (Hash.hmac_length hH _ _) hL hL' hok.ge,
    ← hok, List.drop_length, List.append_nil]
  rfl

/-- One candidate key. -/
def cand (ikm salt : List UInt8) : List UInt8 := Rfc.expand H (Rfc.extract H salt ikm) [0, 48] 48

theorem secretKeyLoop_eq (ikm : List UInt8) : ∀ (fuel : ℕ) (salt okm : List UInt8), okm.length = 48 →
    ∃ r, secretKeyLoop ikm fuel salt okm = some r ∧ ∀ sk, r = some sk ↔ sk.length = 4 ∧ ∃ n < fuel,
      (∀ m < n, beVal (cand (H := H) ikm (H^[m] salt)) % q = 0) ∧
      beVal (cand (H := H) ikm (H^[n] salt)) % q = wordsVal sk ∧ wordsVal sk ≠ 0
  | 0, salt, okm, _ => ⟨none, rfl, by simp⟩
  | fuel + 1, salt, okm, hok => by
    have hl : (cand (H := H) ikm salt).length = 48 := expand_length hH _ _ _
    obtain ⟨c, d, h1, h2, h3⟩ := divQ (Scalar.fromBytesBE 6 (cand (H := H) ikm salt))
      (by rw [fromBytesBE_length]; norm_num)
    rw [fromBytesBE_val 6 _ (by rw [hl])] at h3
    have e : secretKeyLoop ikm (fuel + 1) salt okm = if !Scalar.equal d [0, 0, 0, 0] then some (some d)
        else secretKeyLoop ikm fuel (Sha256.hash [salt]) (cand (H := H) ikm salt) := by
      rw [secretKeyLoop, extractExpand_eq hH okm ikm salt [0, 48] 48 (by norm_num) (by norm_num) hok]
      change (match Division.divnSafe (Scalar.fromBytesBE 6 (cand (H := H) ikm salt)) FpC.Q with
        | none => none
        | some (_, sk) => _) = _
      rw [h1]; rfl
    rw [e]
    by_cases h0 : wordsVal d = 0
    · rw [(equal_zero h2).2 h0]
      obtain ⟨r, hr, hs⟩ := secretKeyLoop_eq ikm fuel (Sha256.hash [salt]) (cand (H := H) ikm salt) hl
      refine ⟨r, hr, fun sk => ?_⟩
      rw [Hash.hash_sha hH, List.flatten_singleton] at hs
      rw [hs]
      refine and_congr_right fun _ => ⟨?_, ?_⟩
      · rintro ⟨n, hn, ha, hb, hc⟩
        refine ⟨n + 1, by omega, ?_, by rw [Function.iterate_succ_apply]; exact hb, hc⟩
        rintro (_ | m) hm
        · rw [Function.iterate_zero_apply, ← h3, h0]
        · rw [Function.iterate_succ_apply]; exact ha m (by omega)
      · rintro ⟨_ | n, hn, ha, hb, hc⟩
        · rw [Function.iterate_zero_apply, ← h3, h0] at hb
          exact absurd hb.symm hc
        · rw [Function.iterate_succ_apply] at hb
          refine ⟨n, by omega, fun m hm => ?_, hb, hc⟩
          have := ha (m + 1) (by omega)
          rwa [Function.iterate_succ_apply] at this
    · have hne : Scalar.equal d [0, 0, 0, 0] = false := by
        rw [Bool.eq_false_iff]; intro h; exact h0 ((equal_zero h2).1 h)
      rw [hne]
      refine ⟨some d, rfl, fun sk => ⟨?_, ?_⟩⟩
      · intro h
        obtain rfl := Option.some.inj h
        exact ⟨h2, 0, by omega, by simp, h3.symm, h0⟩
      · rintro ⟨hl4, _ | n, hn, ha, hb, hc⟩
        · rw [Function.iterate_zero_apply, ← h3] at hb
          exact congrArg some (wordsVal_inj (h2.trans hl4.symm) hb)
        · have := ha 0 (by omega)
          rw [Function.iterate_zero_apply, ← h3] at this
          exact absurd this h0

omit hH in
theorem salt_iterate (n : ℕ) : KeyGen.salt H n = H^[n] salt0 := by
  induction n with
  | zero => rw [Function.iterate_zero_apply]; rw [KeyGen.salt]; decide +kernel
  | succ n ih => rw [KeyGen.salt, ih, Function.iterate_succ_apply']

omit hH in
theorem candidate_eq (seed : List UInt8) (n : ℕ) :
    KeyGen.candidate H seed n = beVal (cand (H := H) (seed ++ [0]) (H^[n] salt0)) % q := by
  rw [KeyGen.candidate, salt_iterate, cand]
  rfl

/-- `secret_key` returns the first non-zero candidate. -/
theorem secretKey_iff (junk : List UInt8) (hj : junk.length = 48) (fuel : ℕ) (seed : List UInt8) (hs : 32 ≤ seed.length) :
    ∃ r, secretKey junk fuel seed = some r ∧ ∀ sk, r = some sk ↔ sk.length = 4 ∧ ∃ n < fuel,
      (∀ m < n, KeyGen.candidate H seed m = 0) ∧ KeyGen.candidate H seed n = wordsVal sk ∧ wordsVal sk ≠ 0 := by
  obtain ⟨r, h1, h2⟩ := secretKeyLoop_eq hH (seed ++ [0]) fuel salt0 junk hj
  refine ⟨r, by rw [secretKey, if_neg (by omega), h1], fun sk => ?_⟩
  simp only [candidate_eq, h2]

omit hH in
theorem candidate_lt (seed : List UInt8) (n : ℕ) : KeyGen.candidate H seed n < q := Nat.mod_lt _ (by decide +kernel)

/-! ## Hardened derivation -/

omit hH in
theorem indexBytes_eq (i : UInt32) : indexBytes i = Fips.be 4 i.toNat := by
  have e : ∀ w : UInt32, w.toUInt8 = UInt8.ofNat w.toNat := fun w => by
    apply UInt8.toNat_inj.1; simp
  rw [indexBytes, Fips.be]
  simp only [List.range, List.range.loop, List.map, e]
  simp [UInt32.toNat_shiftRight, Nat.shiftRight_eq_div_pow]

omit hH in
theorem be_succ (n v : ℕ) : Fips.be (n + 1) v = Fips.be n (v / 256) ++ [UInt8.ofNat v] := by
  rw [Fips.be, Fips.be, List.range_succ, List.map_append, List.map_singleton]
  congr 1
  · refine List.map_congr_left fun i hi => ?_
    have : i < n := List.mem_range.1 hi
    rw [Nat.div_div_eq_div_mul, ← pow_succ', show n - 1 - i + 1 = n + 1 - 1 - i by omega]
  · rw [show n + 1 - 1 - n = 0 by omega, pow_zero, Nat.div_one]

omit hH in
theorem be_val : ∀ n v : ℕ, beVal (Fips.be n v) = v % 256 ^ n
  | 0, v => by rw [pow_zero, Nat.mod_one]; rfl
  | n + 1, v => by
    rw [be_succ, beVal_append, be_val n, pow_succ', Nat.mod_mul]
    simp [beVal]
    omega

omit hH in
theorem toBytesBE_eq_be (sk : List UInt64) : toBytesBE sk = Fips.be (8 * sk.length) (wordsVal sk) := by
  apply beVal_inj
  · rw [toBytesBE_length, Sha256.be_length]
  · rw [toBytesBE_val, be_val, Nat.mod_eq_of_lt]
    calc wordsVal sk < 2 ^ (64 * sk.length) := wordsVal_lt sk
      _ = 256 ^ (8 * sk.length) := by
        rw [show 256 = 2 ^ 8 by norm_num, ← pow_mul, ← mul_assoc]; norm_num

omit hH in
theorem flip_eq (x : UInt8) : x ^^^ 0xff = 255 - x := by
  have h : ∀ n < 256, UInt8.ofNat n ^^^ 0xff = 255 - UInt8.ofNat n := by decide +kernel
  have := h x.toNat x.toNat_lt
  rwa [UInt8.ofNat_toNat] at this

theorem hashPieces_eq (okm : List UInt8) : hashPieces okm =
    (((List.range 255).map fun i => (okm.drop (32 * i)).take 32).map H).flatten := by
  rw [hashPieces, List.flatMap_def, List.map_map]
  congr 1
  refine List.map_congr_left fun i _ => ?_
  rw [Hash.hash_sha hH, List.flatten_singleton, mul_comm]; rfl

/-- `parent_sk_to_lamport_pk` is the function of EIP-2333. -/
theorem lamport_eq (junk0 junk1 : List UInt8) (h0 : junk0.length = 8160) (h1 : junk1.length = 8160)
    (sk : List UInt64) (hs : sk.length = 4) (i : UInt32) :
    parentSkToLamportPk junk0 junk1 sk i = some (KeyGen.lamportPk H (wordsVal sk) i.toNat) := by
  have e : ∀ junk ikm salt : List UInt8, junk.length = 8160 → ikmToLamportSk junk ikm salt =
      some (Rfc.expand H (Rfc.extract H salt ikm) [] 8160) := fun junk ikm salt h => by
    rw [ikmToLamportSk, show 32 * 255 = 8160 from by norm_num, extractExpand_eq hH junk _ _ _ 8160 (by norm_num) (le_refl _) h]
    exact Option.map_some _ _
  unfold parentSkToLamportPk
  simp only [e _ _ _ h0, e _ _ _ h1]
  rw [Hash.hash_sha hH, List.flatten_singleton, hashPieces_eq hH, hashPieces_eq hH, KeyGen.lamportPk,
    indexBytes_eq, toBytesBE_eq_be, hs]
  dsimp only [KeyGen.lamportSk]
  rw [show (fun x : UInt8 => x ^^^ 255) = (255 - ·) from funext flip_eq]

theorem lamportPk_length (a i : ℕ) : (KeyGen.lamportPk H a i).length = 32 := Hash.length_sha hH _

end

/-! ## Aggregation of secret keys -/

theorem aggregateLoop_spec : ∀ (sks : List (List UInt64)) (ret : List UInt64), ret.length = 4 → wordsVal ret < q →
    (∀ sk ∈ sks, sk.length = 4 ∧ wordsVal sk < q ∧ ∀ w ∈ sk, w.toNat ≠ 2 ^ 64 - 1) →
    ∃ r, aggregateSecretKeysLoop sks ret = some r ∧ r.length = 4 ∧
      wordsVal r = (wordsVal ret + (sks.map wordsVal).sum) % q
  | [], ret, hl, hq, _ => ⟨ret, rfl, hl, by simp [Nat.mod_eq_of_lt hq]⟩
  | sk :: sks, ret, hl, hq, h => by
    obtain ⟨k1, k2, k3⟩ := h sk (by simp)
    have hmax : max ret.length sk.length = 4 := by rw [hl, k1]; rfl
    obtain ⟨s, a1, a2, a3⟩ := add_spec 4 ret sk hmax.le k3 (by
      rw [hmax]
      have : q + q < 2 ^ (64 * 4) := by decide +kernel
      omega)
    obtain ⟨c, d, d1, d2, d3⟩ := divQ s a2.ge
    obtain ⟨r, r1, r2, r3⟩ := aggregateLoop_spec sks d d2 (by rw [d3]; exact Nat.mod_lt _ (by decide +kernel))
      (fun x hx => h x (List.mem_cons_of_mem _ hx))
    refine ⟨r, ?_, r2, ?_⟩
    · rw [aggregateSecretKeysLoop, a1]
      dsimp only
      rw [d1]; exact r1
    · rw [r3, d3, a3, Nat.mod_add_mod, List.map_cons, List.sum_cons, add_assoc]

/-- The first key meets the accumulator 0, so no carry occurs. -/
theorem addLoop_zero : ∀ (n : ℕ) (b : List UInt64), b.length = n →
    addLoop n (List.replicate n 0) b 0 = (b, 0)
  | 0, [], _ => rfl
  | n + 1, w :: b, h => by
    rw [addLoop]
    have h1 : (add64 ((List.replicate (n + 1) (0 : UInt64)).headD 0) ((w :: b).headD 0) 0) = (w, 0) := by
      simp [add64, List.replicate_succ]
    rw [h1]
    dsimp only
    rw [List.replicate_succ, List.tail_cons, List.tail_cons, addLoop_zero n b (by simpa using h)]

theorem aggregate_spec (sk : List UInt64) (sks : List (List UInt64)) (h0 : sk.length = 4)
    (h : ∀ k ∈ sks, k.length = 4 ∧ wordsVal k < q ∧ ∀ w ∈ k, w.toNat ≠ 2 ^ 64 - 1) :
    ∃ r, aggregateSecretKeys (sk :: sks) = some r ∧ r.length = 4 ∧
      wordsVal r = (wordsVal sk + (sks.map wordsVal).sum) % q := by
  have e : Scalar.add 4 [0, 0, 0, 0] sk = some sk := by
    have := addLoop_zero 4 sk h0
    rw [Scalar.add]
    simp only [h0, List.length_cons, List.length_nil]
    norm_num
    rw [show ([0, 0, 0, 0] : List UInt64) = List.replicate 4 0 from rfl, this]
    simp
  obtain ⟨c, d, d1, d2, d3⟩ := divQ sk h0.ge
  obtain ⟨r, r1, r2, r3⟩ := aggregateLoop_spec sks d d2 (by rw [d3]; exact Nat.mod_lt _ (by decide +kernel)) h
  refine ⟨r, ?_, r2, by rw [r3, d3, Nat.mod_add_mod]⟩
  rw [aggregateSecretKeys, List.isEmpty_cons]
  simp only [Bool.false_eq_true, if_false, aggregateSecretKeysLoop, e, d1]
  exact r1

theorem aggregate_false : aggregateSecretKeys [[1, 0, 0, 0], [0xffffffffffffffff, 0xffffffffffffffff, 0, 0]] =
    some [0, 0, 0, 0] := by decide +kernel

/-! ## Byte codec -/

theorem skFromBytes_mod (bs : List UInt8) (h : bs.length = 32) :
    ∃ sk, skFromBytes bs true = some sk ∧ sk.length = 4 ∧ wordsVal sk = beVal bs % q := by
  obtain ⟨c, d, h1, h2, h3⟩ := divQ (fromBytesBE 4 bs) (fromBytesBE_length _ _).ge
  refine ⟨d, by rw [skFromBytes, if_pos rfl, h1]; rfl, h2, by rw [h3, fromBytesBE_val 4 bs h]⟩

theorem skFromBytes_check (bs : List UInt8) (h : bs.length = 32) :
    ∃ sk, skFromBytes bs false = some sk ∧ sk.length = 4 ∧ wordsVal sk = if beVal bs < q then beVal bs else 0 := by
  have hc := cmp_spec (fromBytesBE 4 bs) FpC.Q (fromBytesBE_length _ _)
  rw [Q_val, fromBytesBE_val 4 bs h] at hc
  rw [skFromBytes]
  simp only [Bool.false_eq_true, if_false, hc, compare_lt_iff_lt, ne_eq]
  by_cases h1 : beVal bs < q
  · rw [if_neg (not_not.2 h1), if_pos h1]
    exact ⟨_, rfl, fromBytesBE_length _ _, fromBytesBE_val 4 bs h⟩
  · rw [if_pos h1, if_neg h1]
    exact ⟨_, rfl, rfl, by decide +kernel⟩

/-! ## Sums of points -/

section
variable {F : Type} [Field F] [DecidableEq F] [Ops F] [LawfulOps F] {b : F}

theorem foldl_add_rep (hb : GoodCurve b) {ps : List (Jac F)} {Ps : List (curve b).Point} (h : List.Forall₂ Jac.Rep ps Ps) :
    ∀ {a : Jac F} {A : (curve b).Point}, a.Rep A → (ps.foldl Jac.add a).Rep (A + Ps.sum) := by
  induction h with
  | nil => intro a A ha; rwa [List.sum_nil, add_zero]
  | cons h1 _ ih =>
    intro a A ha
    rw [List.foldl_cons, List.sum_cons, ← add_assoc]
    exact ih (Jac.add_rep hb ha h1)

theorem start_rep : (⟨Ops.zero, Ops.zero, Ops.zero⟩ : Jac F).Rep (0 : (curve b).Point) := LawfulOps.zero_eq

theorem aggregate_rep (hb : GoodCurve b) {ps : List (Jac F)} {Ps : List (curve b).Point} (h : List.Forall₂ Jac.Rep ps Ps) :
    (aggregate ps).Rep Ps.sum := by
  have := foldl_add_rep hb h start_rep
  rwa [zero_add] at this

theorem aggregateIf_aux (hb : GoodCurve b) {T : Type} (f : T → Jac F) (pred : T → ℕ → Bool) :
    ∀ (xs : List T) (k : ℕ) (P : ℕ → (curve b).Point) (_ : ∀ i (h : i < xs.length), (f xs[i]).Rep (P (k + i)))
    {a : Jac F} {A : (curve b).Point}, a.Rep A →
    ((xs.zipIdx k).foldl (fun agg x => if pred x.1 x.2 then agg.add (f x.1) else agg) a).Rep
      (A + ∑ i : Fin xs.length, if pred xs[i] (k + i) then P (k + i) else 0)
  | [], k, P, _, a, A, ha => by simpa using ha
  | x :: xs, k, P, hP, a, A, ha => by
    rw [List.zipIdx_cons, List.foldl_cons]
    have h0 : (f x).Rep (P k) := hP 0 (by simp)
    have ha' : (if pred x k then a.add (f x) else a).Rep (A + if pred x k then P k else 0) := by
      split_ifs
      · exact Jac.add_rep hb ha h0
      · rwa [add_zero]
    have := aggregateIf_aux hb f pred xs (k + 1) P (fun i h => by
      have := hP (i + 1) (by simpa using h)
      rw [show k + 1 + i = k + (i + 1) by omega]
      simpa using this) ha'
    convert this using 1
    rw [add_assoc]
    congr 1
    have := Fin.sum_univ_succ (fun i : Fin (xs.length + 1) => if pred (x :: xs)[i] (k + i) then P (k + i) else 0)
    refine Eq.trans ?_ (this.trans ?_)
    · rfl
    · simp [add_assoc, add_comm 1]

theorem aggregateIf_rep (hb : GoodCurve b) {T : Type} (f : T → Jac F) (pred : T → ℕ → Bool) (xs : List T)
    (P : ℕ → (curve b).Point) (hP : ∀ i (h : i < xs.length), (f xs[i]).Rep (P i)) :
    (aggregateIf xs f pred).Rep (∑ i : Fin xs.length, if pred xs[i] i then P i else 0) := by
  have := aggregateIf_aux hb f pred xs 0 P (by simpa using hP) start_rep
  rw [aggregateIf]
  simpa only [zero_add] using this

end

theorem exists_words {k : ℕ} (h : k < q) : ∃ sk : List UInt64, sk.length = 4 ∧ wordsVal sk = k := by
  refine ⟨fromBytesBE 4 (Fips.be 32 k), fromBytesBE_length _ _, ?_⟩
  rw [fromBytesBE_val 4 _ (Sha256.be_length _ _), be_val, Nat.mod_eq_of_lt (h.trans (by decide +kernel))]

theorem words_ne_max {d : List UInt64} (h : d.length = 4)
    (hd : ∀ k < 4, wordsVal d / 2 ^ (64 * k) % 2 ^ 64 ≠ 2 ^ 64 - 1) : ∀ w ∈ d, w.toNat ≠ 2 ^ 64 - 1 := by
  match d, h with
  | [a, b, c, e], _ =>
    have h0 := hd 0 (by norm_num); have h1 := hd 1 (by norm_num)
    have h2 := hd 2 (by norm_num); have h3 := hd 3 (by norm_num)
    have g0 := u64_lt a; have g1 := u64_lt b; have g2 := u64_lt c; have g3 := u64_lt e
    simp only [wordsVal] at h0 h1 h2 h3
    norm_num at h0 h1 h2 h3 g0 g1 g2 g3
    simp only [List.mem_cons, List.not_mem_nil, or_false, forall_eq_or_imp, forall_eq]
    norm_num
    omega

section
variable {F : Type} [Field F] [DecidableEq F] [Ops F] [LawfulOps F] {b : F}

theorem perm_forall₂ {ps ps' : List (Jac F)} {Ps : List (curve b).Point} (h : List.Forall₂ Jac.Rep ps Ps) (hp : ps.Perm ps') :
    ∃ Ps', List.Forall₂ Jac.Rep ps' Ps' ∧ Ps.Perm Ps' := by
  induction hp generalizing Ps with
  | nil => exact ⟨Ps, h, List.Perm.refl _⟩
  | cons x _ ih =>
    cases h with
    | cons h1 h2 =>
      obtain ⟨Qs, k1, k2⟩ := ih h2
      exact ⟨_ :: Qs, .cons h1 k1, k2.cons _⟩
  | swap x y l =>
    cases h with
    | cons h1 h2 =>
      cases h2 with
      | cons h3 h4 => exact ⟨_, .cons h3 (.cons h1 h4), List.Perm.swap _ _ _⟩
  | trans _ _ ih1 ih2 =>
    obtain ⟨Q1, k1, k2⟩ := ih1 h
    obtain ⟨Q2, k3, k4⟩ := ih2 k1
    exact ⟨Q2, k3, k2.trans k4⟩

theorem aggregate_grouping (hb : GoodCurve b) {pss : List (List (Jac F))} {Pss : List (List (curve b).Point)}
    (h : List.Forall₂ (List.Forall₂ Jac.Rep) pss Pss) :
    (aggregate (pss.map aggregate)).equal (aggregate pss.flatten) = true := by
  have h1 : List.Forall₂ Jac.Rep (pss.map aggregate) (Pss.map List.sum) := by
    induction h with
    | nil => exact .nil
    | cons a _ ih => exact .cons (aggregate_rep hb a) ih
  have h2 : List.Forall₂ Jac.Rep pss.flatten Pss.flatten := by
    clear h1
    induction h with
    | nil => exact .nil
    | cons a _ ih => rw [List.flatten_cons, List.flatten_cons]; exact List.rel_append a ih
  rw [Jac.equal_iff (aggregate_rep hb h1) (aggregate_rep hb h2), List.sum_flatten]

theorem _root_.Bls.Jac.affine_z {a : Jac F} {P : (curve b).Point} (h : a.Rep P) (h0 : P ≠ 0) : a.affine.z = 1 := by
  match P, h with
  | .zero, _ => exact absurd rfl h0
  | .some x y hn, h => rw [Jac.affine_some h]

end

theorem _root_.Bls.Hash.hash_sha_one {H : List UInt8 → List UInt8} (hH : ∀ m, Fips.IsSha256 m (H m)) (m : List UInt8) :
    Sha256.hash [m] = H m := by
  rw [Hash.hash_sha hH, List.flatten_singleton]

/-! ## Public keys -/

section
variable {K : Type} [Field K] [DecidableEq K] [FpOps K] [LawfulFp K]

theorem order_gen1 : addOrderOf (gen1 K) = q :=
  have : Fact q.Prime := ⟨q_prime⟩
  addOrderOf_eq_prime (q_smul_gen1 K) (gen1_ne_zero K)

theorem order_gen2 : addOrderOf (gen2 K) = q :=
  have : Fact q.Prime := ⟨q_prime⟩
  addOrderOf_eq_prime (q_smul_gen2 K) (gen2_ne_zero K)

theorem smul_gen1_mod (n : ℕ) : (n % q) • gen1 K = n • gen1 K := by
  rw [← order_gen1 (K := K), mod_addOrderOf_nsmul]

theorem smul_gen1_eq_zero_iff (n : ℕ) : n • gen1 K = 0 ↔ q ∣ n := by
  rw [← order_gen1 (K := K), addOrderOf_dvd_iff_nsmul_eq_zero]

theorem publicKey_rep (sk : List UInt64) : (publicKey sk : G1 K).Rep (wordsVal sk • gen1 K) :=
  Jac.affine_rep (Jac.scale_rep (goodCurve1 K) G1.one_rep sk)

theorem smul_gen1_eq_iff (m n : ℕ) : m • gen1 K = n • gen1 K ↔ m % q = n % q := by
  have h := nsmul_inj_mod (x := gen1 K) (n := m) (m := n)
  rwa [order_gen1] at h

theorem smul_gen2_mod (n : ℕ) : (n % q) • gen2 K = n • gen2 K := by
  rw [← order_gen2 (K := K), mod_addOrderOf_nsmul]

theorem aggregate_publicKeys (sks : List (List UInt64)) :
    (aggregate (sks.map fun sk => (publicKey sk : G1 K))).Rep ((sks.map wordsVal).sum • gen1 K) := by
  have := aggregate_rep (goodCurve1 K) (ps := sks.map fun sk => (publicKey sk : G1 K))
    (Ps := sks.map fun sk => wordsVal sk • gen1 K) (by
      rw [List.forall₂_map_left_iff, List.forall₂_map_right_iff, List.forall₂_same]
      exact fun sk _ => publicKey_rep sk)
  convert this using 1
  clear this
  induction sks with
  | nil => simp
  | cons a l ih => simp [add_smul, ih]

section
variable {H : List UInt8 → List UInt8} (hH : ∀ m, Fips.IsSha256 m (H m))
include hH

theorem childSk_spec (sk : List UInt64) (h : sk.length = 4) (i : UInt32)
    (hd : ∀ k < 4, beVal (H (G1.toCompressedBytesBE (publicKey sk : G1 K) ++ Fips.be 4 i.toNat)) % q
      / 2 ^ (64 * k) % 2 ^ 64 ≠ 2 ^ 64 - 1) :
    ∃ c, deriveChildSkUnhardened K sk i = some c ∧ c.length = 4 ∧ wordsVal c = (wordsVal sk +
      beVal (H (G1.toCompressedBytesBE (publicKey sk : G1 K) ++ Fips.be 4 i.toNat))) % q := by
  have hl := Hash.length_sha hH (G1.toCompressedBytesBE (publicKey sk : G1 K) ++ Fips.be 4 i.toNat)
  obtain ⟨d, d1, d2, d3⟩ := skFromBytes_mod _ hl
  obtain ⟨c, c1, c2, c3⟩ := aggregate_spec sk [d] h (by
    intro k hk
    rw [List.mem_singleton] at hk
    subst hk
    exact ⟨d2, by rw [d3]; exact Nat.mod_lt _ q_prime.pos, words_ne_max d2 (by rw [d3]; exact hd)⟩)
  refine ⟨c, ?_, c2, ?_⟩
  · rw [deriveChildSkUnhardened, Hash.hash_sha_one hH, indexBytes_eq, d1, Option.bind_some, c1]
  · rw [c3, List.map_singleton, List.sum_singleton, d3, Nat.add_mod_mod]

theorem childG1_rep (pk : G1 K) (P : E1 K) (hp : pk.Rep P) (i : UInt32) :
    ∃ c, deriveChildG1Unhardened pk i = some c ∧
      c.Rep (P + beVal (H (G1.toCompressedBytesBE pk ++ Fips.be 4 i.toNat)) • gen1 K) := by
  have hl := Hash.length_sha hH (G1.toCompressedBytesBE pk ++ Fips.be 4 i.toNat)
  obtain ⟨c, d, d1, d2, d3⟩ := divQ (fromBytesBE 4 (H (G1.toCompressedBytesBE pk ++ Fips.be 4 i.toNat)))
    (fromBytesBE_length _ _).ge
  refine ⟨pk.add ((G1.one : G1 K).scale d), ?_, ?_⟩
  · rw [deriveChildG1Unhardened, Hash.hash_sha_one hH, indexBytes_eq, d1, Option.map_some]
  · rw [fromBytesBE_val 4 _ hl] at d3
    rw [← smul_gen1_mod, ← d3]
    exact Jac.add_rep (goodCurve1 K) hp (Jac.scale_rep (goodCurve1 K) G1.one_rep d)

theorem childG2_rep (pk : G2 K) (P : E2 K) (hp : pk.Rep P) (i : UInt32) :
    ∃ c, deriveChildG2Unhardened pk i = some c ∧
      c.Rep (P + beVal (H (G2.toCompressedBytesBE pk ++ Fips.be 4 i.toNat)) • gen2 K) := by
  have hl := Hash.length_sha hH (G2.toCompressedBytesBE pk ++ Fips.be 4 i.toNat)
  obtain ⟨c, d, d1, d2, d3⟩ := divQ (fromBytesBE 4 (H (G2.toCompressedBytesBE pk ++ Fips.be 4 i.toNat)))
    (fromBytesBE_length _ _).ge
  refine ⟨pk.add ((G2.one : G2 K).scale d), ?_, ?_⟩
  · rw [deriveChildG2Unhardened, Hash.hash_sha_one hH, indexBytes_eq, d1, Option.map_some]
  · rw [fromBytesBE_val 4 _ hl] at d3
    rw [← smul_gen2_mod, ← d3]
    exact Jac.add_rep (goodCurve2 K) hp (Jac.scale_rep (goodCurve2 K) G2.one_rep d)

theorem child_commutes (sk : List UInt64) (i : UInt32) (hl : sk.length = 4)
    (hd : ∀ k < 4, beVal (H (G1.toCompressedBytesBE (publicKey sk : G1 K) ++ Fips.be 4 i.toNat)) % q
      / 2 ^ (64 * k) % 2 ^ 64 ≠ 2 ^ 64 - 1) :
    ∃ c d, deriveChildSkUnhardened K sk i = some c ∧
      deriveChildG1Unhardened (publicKey sk : G1 K) i = some d ∧ d.equal (publicKey c) = true ∧
      wordsVal c = (wordsVal sk + beVal (H (G1.toCompressedBytesBE (publicKey sk : G1 K) ++ Fips.be 4 i.toNat))) % q := by
  obtain ⟨c, c1, c2, c3⟩ := childSk_spec hH sk hl i hd
  obtain ⟨d, d1, d2⟩ := childG1_rep hH (publicKey sk : G1 K) _ (publicKey_rep sk) i
  refine ⟨c, d, c1, d1, ?_, c3⟩
  rw [Jac.equal_iff d2 (publicKey_rep c), c3, smul_gen1_mod, add_smul]

end

/-- The compressed generator. -/
theorem compressed_gen1 : G1.toCompressedBytesBE (publicKey [1, 0, 0, 0] : G1 K) = Fips.be 48 (2 ^ 383 + gen1X) := by
  have h := publicKey_rep (K := K) [1, 0, 0, 0]
  rw [show wordsVal [1, 0, 0, 0] = 1 by decide +kernel, one_smul] at h
  refine (G1.encode h (gen1_ne_zero K)).unique ⟨Sha256.be_length _ _, gen1X, gen1Y, by decide +kernel, by decide +kernel, rfl, rfl, ?_⟩
  decide +kernel

end

end Bls.Keys
