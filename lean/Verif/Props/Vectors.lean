import Verif.Proof.VectorsVerify
import Verif.Props.Binding

/-!
# C105: memory of vectors

`e.grants k n` tells whether the request with number `k` for `n` bytes is granted, `h.calls` how many requests were made before the call and
`h.blocks` which blocks were in use. A full vector grows to at most twice its capacity (`hg`).
-/

namespace Bls.Props
open Bls Vectors

variable {adx : Bool} {σ ε : Type}

/-- The blocks in use come from requests that were made. -/
def Proper (h : Heap) : Prop := ∀ x ∈ h.blocks, x.1 < h.calls

/-- The call leaves no block behind and returns none that it does not own; its outcome is `expected`, or `bad_alloc` after a refused
request for at most `most` bytes, or `length_error` if `impossible`. -/
abbrev Fair {α : Type} (e : Env) (h : Heap) (most : ℕ) (impossible : Prop) (expected : Except (Exc ε) α) (r : Except (Exc ε) α × Heap) : Prop :=
  Unharmed e.grants most impossible (.error .badAlloc) (.error .lengthError) expected h.calls r.2.calls h.blocks r.2.blocks r.1

theorem own_start {h : Heap} (hh : Proper h) : Own h.calls h.blocks [] h :=
  ⟨rfl, fun _ hx => absurd hx List.not_mem_nil, hh, le_rfl⟩

theorem fair_of_res {α : Type} {e : Env} {h : Heap} {most : ℕ} {imp : Prop} {o : Except (Exc ε) α} {r : Except (Exc ε) α × Heap}
    (x : Res e h.calls h.blocks [] h most imp o r) : Fair e h most imp o r :=
  ⟨x.own.blocks, x.outcome⟩

/-- The largest block of a weighted sum of `n` points of `size` bytes: the buckets or the windows. -/
def sumBlock (size n : ℕ) : ℕ := size * max (sumWindows n) (2 ^ sumWidth n - 1)

theorem sumBlock_le {n : ℕ} (h : n < 2 ^ 64) : sumBlock 288 n < 2 ^ 63 - 1 := by
  have hs : n.size ≤ 64 := Nat.size_le.2 h
  have hw : sumWidth n ≤ 23 := by
    rw [sumWidth]
    split_ifs <;> omega
  have h1 : 2 ^ sumWidth n ≤ 2 ^ 23 := Nat.pow_le_pow_right (by norm_num) hw
  have h2 : sumWindows n ≤ 256 := by
    rw [sumWindows]
    exact Nat.succ_le_succ (Nat.div_le_self _ _)
  rw [sumBlock]
  have h3 : max (sumWindows n) (2 ^ sumWidth n - 1) ≤ 2 ^ 23 := by
    generalize 2 ^ sumWidth n = a at *
    rw [max_le_iff]
    norm_num at h1 ⊢
    omega
  calc 288 * _ ≤ 288 * 2 ^ 23 := Nat.mul_le_mul_left _ h3
    _ < _ := by norm_num

/-- C105: `weightedSum` ends as if memory were not needed, or with `bad_alloc`; also if the callback throws, both vectors are given back. -/
theorem C105_weighted_sum (e : Env) (scalars : List (List UInt64)) (yield : Jac.Yield σ ε) (s : σ) {h : Heap} (hh : Proper h) :
    (∀ points : List (G1 (FpV adx)), min scalars.length points.length < 2 ^ 64 →
      Fair e h (sumBlock 144 (min scalars.length points.length)) False (lift (Jac.weightedSumRun points scalars yield s))
        (weightedSum e 144 points scalars yield s h)) ∧
    (∀ points : List (G2 (FpV adx)), min scalars.length points.length < 2 ^ 64 →
      Fair e h (sumBlock 288 (min scalars.length points.length)) False (lift (Jac.weightedSumRun points scalars yield s))
        (weightedSum e 288 points scalars yield s h)) := by
  have key : ∀ (size n : ℕ), size ≤ 288 → n < 2 ^ 64 → size * (255 / Jac.windowBits n + 1) ≤ sumBlock size n ∧
      size * (2 ^ Jac.windowBits n - 1) ≤ sumBlock size n ∧ (2 ^ 63 - 1 < sumBlock size n → False) := fun size n hs hn => by
    rw [Jac.windowBits_width hn]
    refine ⟨Nat.mul_le_mul_left _ (le_max_left _ _), Nat.mul_le_mul_left _ (le_max_right _ _), fun hl => ?_⟩
    have h1 := sumBlock_le hn
    have h2 : sumBlock size n ≤ sumBlock 288 n := Nat.mul_le_mul_right _ hs
    exact absurd (hl.trans_le h2) (not_lt.2 h1.le)
  constructor
  · intro points hn
    obtain ⟨k1, k2, k3⟩ := key 144 _ (by norm_num) hn
    exact fair_of_res (weightedSum_res 144 points scalars yield s (own_start hh) k1 k2 k3)
  · intro points hn
    obtain ⟨k1, k2, k3⟩ := key 288 _ le_rfl hn
    exact fair_of_res (weightedSum_res 288 points scalars yield s (own_start hh) k1 k2 k3)

/-- C105: `calculate` needs 19584 bytes for each pair, and what a copy of the callback needs. -/
theorem C105_calculate (e : Env) (pairs : List (G1 (FpV adx) × G2 (FpV adx))) (yield : Jac.Yield σ ε) (s : σ) {h : Heap} (hh : Proper h) :
    Fair e h (max e.callback (19584 * pairs.length)) (2 ^ 63 ≤ max e.callback (19584 * pairs.length))
      (lift (Pairing.calculateRun pairs yield s)) (calculate e pairs yield s h) :=
  fair_of_res (calculate_res pairs yield s (own_start hh) (fun _ => le_max_left _ _) (le_max_right _ _) fun h => by
    generalize max e.callback (19584 * pairs.length) = m at *
    omega)

/-- C105: `add_pair` adds the pair, or throws and leaves the vector and all memory as they were. The vector may be any that is made by
`add_pair`: its block is the only one that the call may give back. -/
theorem C105_add_pair (e : Env) (hg : ∀ c, e.grow c ≤ max 1 (2 * c)) (v : Vec (FpV adx)) (a : G1 (FpV adx)) (b : G2 (FpV adx)) {h : Heap}
    {others : List (ℕ × ℕ)} {c0 : ℕ} (hb : h.blocks = v.block ++ others) (hv : ∀ x ∈ v.block, c0 ≤ x.1 ∧ x.1 < h.calls)
    (ho : ∀ x ∈ others, x.1 < c0) (hc : c0 ≤ h.calls) :
    (∃ v' h', addPair (ε := ε) e v a b h = (.ok v', h') ∧ v'.data = Pairing.addPair v.data a b ∧ h'.blocks = v'.block ++ others) ∨
    (∃ h', addPair (ε := ε) e v a b h = (.error .badAlloc, h') ∧ h'.blocks = h.blocks ∧
      Refused e.grants h.calls h'.calls (864 * (v.data.length + 1))) ∨
    (addPair (ε := ε) e v a b h = (.error .lengthError, h) ∧ 2 ^ 63 ≤ 864 * (v.data.length + 1)) := by
  rcases addPair_own (ε := ε) hg v a b ⟨hb, hv, ho, hc⟩ le_rfl (imp := 2 ^ 63 ≤ 864 * (v.data.length + 1)) (fun h => by omega) with
    ⟨v', h', e1, e2, e3, -⟩ | ⟨h', e1, e2, -, e3⟩ | ⟨e1, e2⟩
  · exact Or.inl ⟨v', h', e1, e2, e3.blocks⟩
  · exact Or.inr (Or.inl ⟨h', e1, e2.blocks.trans hb.symm, e3⟩)
  · exact Or.inr (Or.inr ⟨e1, e2⟩)

/-- C105: the functions for one signature never need a block of more than 39168 bytes, give everything back, and lack of memory cannot
change their answer: it is the usual one, or there is none. -/
theorem C105_verify (e : Env) (hg : ∀ c, e.grow c ≤ max 1 (2 * c)) {h : Heap} (hh : Proper h) :
    (∀ (pk : G1 (FpV adx)) m (sig : G2 (FpV adx)), Fair e h 39168 False (answer (Sig.verify pk m sig)) (verify e pk m sig h)) ∧
    (∀ (pk : G1 (FpV adx)) (sig : G2 (FpV adx)), Fair e h 39168 False (answer (Sig.popVerify pk sig)) (popVerify e pk sig h)) ∧
    (∀ (pks : List (G1 (FpV adx))) m (sig : G2 (FpV adx)),
      Fair e h 39168 False (answer (Sig.popFastAggregateVerify pks m sig)) (popFastAggregateVerify e pks m sig h)) ∧
    (∀ sk, Fair e h 96 False (answer (Sig.popProve sk : Option (G2 (FpV adx)))) (popProve e sk h)) := by
  refine ⟨fun pk m sig => fair_of_res (verify_res hg pk m sig (own_start hh)), fun pk sig => fair_of_res (popVerify_res hg pk sig (own_start hh) ?_),
    fun pks m sig => fair_of_res (popFast_res hg pks m sig (own_start hh)), fun sk => fair_of_res (popProve_res sk (own_start hh) ?_ ?_)⟩
  · rw [Sig.keyBytes_length]
    norm_num
  · rw [Sig.keyBytes_length]
  · norm_num

/-- C105: the same for `aggregate_verify`, with blocks of at most 19584 bytes for each key and one more, and, if duplicate messages are
looked for, the nodes of the set and the copies of the messages. -/
theorem C105_aggregate (e : Env) (hg : ∀ c, e.grow c ≤ max 1 (2 * c)) {h : Heap} (hh : Proper h) (pks : List (G1 (FpV adx)))
    (ms : List (List UInt8)) (sig : G2 (FpV adx)) (check : Bool) {most : ℕ} (h1 : 19584 * (pks.length + 1) ≤ most)
    (h2 : check = true → e.node ≤ most ∧ ∀ m ∈ ms, m.length ≤ most) :
    Fair e h most (2 ^ 63 ≤ most) (answer (Sig.aggregateVerify pks ms sig check)) (aggregateVerify e pks ms sig check h) :=
  fair_of_res (aggregateVerify_res hg pks ms sig check (own_start hh) h1 h2 fun h => by omega)

/-- C105: so if all requests up to these sizes are granted there is an answer. -/
theorem C105_answers (e : Env) (hg : ∀ c, e.grow c ≤ max 1 (2 * c)) {h : Heap} (hh : Proper h) (most : ℕ)
    (ha : ∀ k n, n ≤ most → e.grants k n = true) :
    (39168 ≤ most → ∀ (pk : G1 (FpV adx)) m (sig : G2 (FpV adx)), (verify e pk m sig h).1 = answer (Sig.verify pk m sig)) ∧
    (∀ (pks : List (G1 (FpV adx))) ms (sig : G2 (FpV adx)) check, 19584 * (pks.length + 1) ≤ most → most < 2 ^ 63 →
      (check = true → e.node ≤ most ∧ ∀ m ∈ ms, m.length ≤ most) →
      (aggregateVerify e pks ms sig check h).1 = answer (Sig.aggregateVerify pks ms sig check)) := by
  have hr : ∀ a b m, m ≤ most → ¬ Refused e.grants a b m := fun a b m hm ⟨k, n, _, _, h3, h4⟩ => by
    rw [ha k n (h3.trans hm)] at h4
    cases h4
  refine ⟨fun hm pk m sig => ?_, fun pks ms sig check h1 hm h2 => ?_⟩
  · rcases ((C105_verify e hg hh).1 pk m sig).outcome with x | x | x
    · exact x
    · exact absurd x.2 (hr _ _ _ hm)
    · exact x.2.elim
  · rcases (C105_aggregate e hg hh pks ms sig check h1 h2).outcome with x | x | x
    · exact x
    · exact absurd x.2 (hr _ _ _ le_rfl)
    · exact absurd x.2 (not_le.2 hm)

/-- C105: in particular the sums and the pairing pass on a result, and an exception of the callback, unchanged, if enough memory is
there. -/
theorem C105_callback (e : Env) (yield : Jac.Yield σ ε) (s : σ) {h : Heap} (hh : Proper h) (ha : ∀ k n, e.grants k n = true) :
    (∀ (points : List (G1 (FpV adx))) (scalars : List (List UInt64)), min scalars.length points.length < 2 ^ 64 →
      (∀ a, Jac.weightedSumRun points scalars yield s = .ok a → (weightedSum e 144 points scalars yield s h).1 = .ok a) ∧
      (∀ x, Jac.weightedSumRun points scalars yield s = .error (.thrown x) → (weightedSum e 144 points scalars yield s h).1 = .error (.thrown x))) ∧
    (∀ (points : List (G2 (FpV adx))) (scalars : List (List UInt64)), min scalars.length points.length < 2 ^ 64 →
      (∀ a, Jac.weightedSumRun points scalars yield s = .ok a → (weightedSum e 288 points scalars yield s h).1 = .ok a) ∧
      (∀ x, Jac.weightedSumRun points scalars yield s = .error (.thrown x) → (weightedSum e 288 points scalars yield s h).1 = .error (.thrown x))) ∧
    (∀ pairs : List (G1 (FpV adx) × G2 (FpV adx)), max e.callback (19584 * pairs.length) < 2 ^ 63 →
      (∀ a, Pairing.calculateRun pairs yield s = .ok a → (calculate e pairs yield s h).1 = .ok a) ∧
      (∀ x, Pairing.calculateRun pairs yield s = .error (.thrown x) → (calculate e pairs yield s h).1 = .error (.thrown x))) := by
  have hr : ∀ a b m, ¬ Refused e.grants a b m := fun a b m ⟨k, n, _, _, _, h4⟩ => by
    rw [ha k n] at h4
    cases h4
  have key : ∀ {α : Type} {o : Except (Jac.Stop ε) α} {r : Except (Exc ε) α × Heap} {m : ℕ} {imp : Prop}, Fair e h m imp (lift o) r → ¬ imp →
      (∀ a, o = .ok a → r.1 = .ok a) ∧ (∀ x, o = .error (.thrown x) → r.1 = .error (.thrown x)) := fun {_ o r m imp} f hi => by
    rcases f.outcome with x | x | x
    · rw [x]
      exact ⟨fun a ho => by rw [ho]; rfl, fun a ho => by rw [ho]; rfl⟩
    · exact absurd x.2 (hr _ _ _)
    · exact absurd x.2 hi
  exact ⟨fun points scalars hn => key ((C105_weighted_sum e scalars yield s hh).1 points hn) id,
    fun points scalars hn => key ((C105_weighted_sum e scalars yield s hh).2 points hn) id,
    fun pairs hn => key (C105_calculate e pairs yield s hh) (not_le.2 hn)⟩

/-! ## Cases -/

/-- Vectors double; nodes of 64 bytes; requests for more than `n` bytes are refused. -/
def upTo (n : ℕ) : Env := ⟨fun _ k => decide (k ≤ n), fun c => max 1 (2 * c), 64, 0⟩

theorem upTo_grow (n c : ℕ) : (upTo n).grow c ≤ max 1 (2 * c) := le_rfl

/-- Another block of 100 bytes is in use. -/
def other : Heap := ⟨1, [(0, 100)]⟩

theorem other_proper : Proper other := fun x hx => by
  rw [List.mem_singleton.1 hx]
  exact Nat.zero_lt_one

/-- 39168 bytes are enough for an honest signature. -/
example : ∃ s : G2 (FpV adx), Sig.sign [3, 0, 0, 0] [1] = some s ∧
    (verify (upTo 39168) (Keys.publicKey [3, 0, 0, 0]) [1] s other).1 = .ok true := by
  obtain ⟨s, e⟩ := C45_sign_defined (adx := adx) [3, 0, 0, 0] [1] (by decide)
  refine ⟨s, e, ?_⟩
  rw [(C105_answers (upTo 39168) (upTo_grow _) other_proper 39168 (fun k n hn => decide_eq_true hn)).1 le_rfl,
    C45_sign _ _ _ e]
  rfl

/-- C105: 39168 bytes are the least that is enough for `verify` of valid points other than infinity: the coefficients for two pairs. -/
theorem C105_verify_tight (pk : G1 (FpV adx)) (m : List UInt8) (sig hp : G2 (FpV adx)) (hm : Sig.fromMessage m Sig.ciphersuiteId = some hp)
    (h1 : pk.isOnCurve FpC.B = true ∧ pk.inCorrectSubgroup = true) (h2 : sig.isOnCurve Fp2.B = true ∧ sig.inCorrectSubgroup = true)
    (z1 : pk.isZero = false) (z2 : sig.isZero = false) (z3 : hp.isZero = false) :
    verify (upTo 39167) pk m sig other = (.error .badAlloc, ⟨4, [(0, 100)]⟩) := by
  have z0 : (G1.one : G1 (FpV adx)).negate.isZero = false := by
    rw [Bool.eq_false_iff, ne_eq, Jac.Rep.isZero_iff (Jac.neg_rep G1.one_rep), neg_eq_zero]
    exact gen1_ne_zero _
  have a1 : addPair (ε := Empty) (upTo 39167) ⟨[], 0, []⟩ (G1.one : G1 (FpV adx)).negate sig other =
      (.ok ⟨[(1, 432)], 1, [((G1.one : G1 (FpV adx)).negate.affine, sig.affine)]⟩, ⟨2, [(1, 432), (0, 100)]⟩) := by
    unfold addPair
    rw [z0, z2]
    rfl
  have a2 : ∀ x, addPair (ε := Empty) (upTo 39167) ⟨[(1, 432)], 1, [x]⟩ pk hp ⟨2, [(1, 432), (0, 100)]⟩ =
      (.ok ⟨[(2, 864)], 2, [x, (pk.affine, hp.affine)]⟩, ⟨3, [(2, 864), (0, 100)]⟩) := fun x => by
    unfold addPair
    rw [z1, z3]
    rfl
  unfold verify
  rw [a1]
  simp only
  rw [hm]
  simp only
  rw [a2]
  simp only
  rw [h1.1, h1.2, h2.1, h2.2, if_neg (by decide), if_neg (by decide)]
  have a3 : ∀ x y : G1 (FpV adx) × G2 (FpV adx), calculate (ε := Empty) (upTo 39167) [x, y] none () ⟨3, [(2, 864), (0, 100)]⟩ =
      (.error .badAlloc, ⟨4, [(2, 864), (0, 100)]⟩) := fun x y => by
    have h1 : allocate (ε := Empty) (upTo 39167) 19584 2 ⟨3, [(2, 864), (0, 100)]⟩ = (.error .badAlloc, ⟨4, [(2, 864), (0, 100)]⟩) := by
      unfold allocate new upTo
      rw [if_neg (by norm_num), if_neg (by norm_num), if_neg (by decide)]
    unfold calculate
    rw [if_neg (by simp)]
    have h0 : allocate (ε := Empty) (upTo 39167) (if (none : Jac.Yield Unit Empty).isSome then (upTo 39167).callback else 0)
        (if (none : Jac.Yield Unit Empty).isSome ∧ (upTo 39167).callback ≠ 0 then 1 else 0) ⟨3, [(2, 864), (0, 100)]⟩ =
        (.ok [], ⟨3, [(2, 864), (0, 100)]⟩) := rfl
    rw [h0]
    simp only [List.length_cons, List.length_nil, Nat.zero_add, Nat.reduceAdd]
    rw [h1]
    rfl
  unfold finish
  rw [a3]
  rfl

/-- The key 3 and the message `abc`: with 39168 bytes the signature is accepted, with 39167 there is no answer. -/
example : ∃ s : G2 (FpV adx), (verify (upTo 39168) (Keys.publicKey [3, 0, 0, 0]) [97, 98, 99] s other).1 = .ok true ∧
    (verify (upTo 39167) (Keys.publicKey [3, 0, 0, 0]) [97, 98, 99] s other).1 = .error .badAlloc := by
  obtain ⟨e, s, he, h0, -, hz, hv, -, hk⟩ := bind_case (adx := adx)
  refine ⟨s, ?_, ?_⟩
  · rw [(C105_answers (upTo 39168) (upTo_grow _) other_proper 39168 (fun k n hn => decide_eq_true hn)).1 le_rfl, hv]
    rfl
  · have h1 : (!(Keys.publicKey [3, 0, 0, 0] : G1 (FpV adx)).isOnCurve FpC.B || !(Keys.publicKey [3, 0, 0, 0] : G1 (FpV adx)).inCorrectSubgroup) ≠ true :=
      fun h => by
        rw [Sig.verify, he, Option.bind_some, if_pos h] at hv
        cases hv
    have h2 : (!s.isOnCurve Fp2.B || !s.inCorrectSubgroup) ≠ true := fun h => by
      rw [Sig.verify, he, Option.bind_some, if_neg h1, if_pos h] at hv
      cases hv
    simp only [ne_eq, Bool.or_eq_true, Bool.not_eq_true', not_or, Bool.not_eq_false] at h1 h2
    rw [C105_verify_tight _ _ s e he h1 h2 hk hz h0]

/-- With no memory at all infinity is still accepted as a signature under infinity: no pair is added. -/
example : (verify (upTo 0) (Jac.zero : G1 (FpV adx)) [97, 98, 99] Jac.zero other).1 = .ok true := by
  have z1 : (Jac.zero : G1 (FpV adx)).isZero = true := Jac.isZero_iff.2 LawfulOps.zero_eq
  have z2 : (Jac.zero : G2 (FpV adx)).isZero = true := Jac.isZero_iff.2 LawfulOps.zero_eq
  have hv := C47_false_verify (adx := adx) Jac.zero [97, 98, 99] Jac.zero (by decide) z1 z2
  rcases ((C105_verify (adx := adx) (upTo 0) (upTo_grow _) other_proper).1 Jac.zero [97, 98, 99] Jac.zero).outcome with x | x | x
  · rw [x, hv]
    rfl
  · exfalso
    have ha : ∀ (v : Vec (FpV adx)) (a : G1 (FpV adx)) (b : G2 (FpV adx)), (a.isZero || b.isZero) = true →
        addPair (ε := Empty) (upTo 0) v a b other = (.ok v, other) := fun v a b hz => by
      unfold addPair
      rw [hz]
      rfl
    obtain ⟨e, -, he, -⟩ := bind_case (adx := adx)
    have hr := x.1
    unfold verify at hr
    rw [ha _ _ _ (by rw [z2, Bool.or_true])] at hr
    simp only at hr
    rw [he] at hr
    simp only at hr
    rw [ha _ _ _ (by rw [z1, Bool.true_or])] at hr
    simp only at hr
    split_ifs at hr
    exact absurd hr (by unfold finish calculate; simp)
  · exact x.2.elim

/-- A callback that throws at its first call: both vectors of the sum have been given back. -/
example : (weightedSum (upTo (10 ^ 9)) 144 [(G1.one : G1 (FpV adx))] [[5, 0, 0, 0]] (some fun _ : Unit => (.error 7 : Except ℕ Unit)) () other).2.blocks =
    [(0, 100)] :=
  ((C105_weighted_sum (adx := adx) (upTo (10 ^ 9)) [[5, 0, 0, 0]] (some fun _ : Unit => (.error 7 : Except ℕ Unit)) () other_proper).1
    [G1.one] (by norm_num)).returned

/-- The second pair does not find memory: the vector still has the first. -/
example (x : G1 (FpV adx) × G2 (FpV adx)) : addPair (ε := Empty) (upTo 432) ⟨[(1, 432)], 1, [x]⟩ G1.one G2.one ⟨2, [(1, 432), (0, 100)]⟩ =
    (.error .badAlloc, ⟨3, [(1, 432), (0, 100)]⟩) := by
  have z1 : (G1.one : G1 (FpV adx)).isZero = false := by
    rw [Bool.eq_false_iff, ne_eq, Jac.Rep.isZero_iff G1.one_rep]; exact gen1_ne_zero _
  have z2 : (G2.one : G2 (FpV adx)).isZero = false := by
    rw [Bool.eq_false_iff, ne_eq, Jac.Rep.isZero_iff G2.one_rep]; exact gen2_ne_zero _
  unfold addPair
  rw [z1, z2]
  rfl

/-- Two signers of `abc` and `1`. -/
example : ∃ s t : G2 (FpV adx), Sig.sign [3, 0, 0, 0] [97, 98, 99] = some s ∧ Sig.sign [5, 0, 0, 0] [1] = some t ∧
    (aggregateVerify (upTo 58752) [Keys.publicKey [3, 0, 0, 0], Keys.publicKey [5, 0, 0, 0]] [[97, 98, 99], [1]] (Keys.aggregate [s, t]) true other).1 =
      .ok true := by
  obtain ⟨s, hs⟩ := C45_sign_defined (adx := adx) [3, 0, 0, 0] [97, 98, 99] (by decide)
  obtain ⟨t, ht⟩ := C45_sign_defined (adx := adx) [5, 0, 0, 0] [1] (by decide)
  refine ⟨s, t, hs, ht, ?_⟩
  have hv := C45_aggregate (adx := adx) [([3, 0, 0, 0], [97, 98, 99]), ([5, 0, 0, 0], [1])] [s, t] true (by decide) (.cons hs (.cons ht .nil))
    (by decide)
  rw [(C105_answers (upTo 58752) (upTo_grow _) other_proper 58752 (fun k n hn => decide_eq_true hn)).2 _ _ _ _ (by norm_num) (by norm_num)
    (fun _ => ⟨by norm_num [upTo], by simp⟩)]
  exact congrArg answer hv

/-- All requests are granted: what the callback of a sum throws at its first call reaches the caller (`C105_callback`). -/
example : (weightedSum ⟨fun _ _ => true, fun c => 2 * c, 64, 0⟩ 144 [(G1.one : G1 (FpV adx))] [[5, 0, 0, 0]]
    (some fun _ : Unit => (.error 7 : Except ℕ Unit)) () other).1 = .error (.thrown 7) := by
  refine ((C105_callback (adx := adx) _ _ () other_proper fun _ _ => rfl).1 [G1.one] [[5, 0, 0, 0]] (by norm_num)).2 7 ?_
  rw [Jac.weightedSumRun_some _ _ _ _ (by norm_num), show callTimes (fun _ : Unit => (.error 7 : Except ℕ Unit))
    (sumCalls (min [[(5 : UInt64), 0, 0, 0]].length [(G1.one : G1 (FpV adx))].length)) () = .error 7 by
      show callTimes _ (sumCalls 1) () = _; decide +kernel]

/-- The product of one pair without memory: the block that was in use remains (`C105_calculate`). -/
example : (calculate (upTo 0) [((G1.one : G1 (FpV adx)), (G2.one : G2 (FpV adx)))] (none : Jac.Yield Unit Empty) () other).2.blocks = [(0, 100)] :=
  (C105_calculate (adx := adx) (upTo 0) [(G1.one, G2.one)] none () other_proper).returned

end Bls.Props
