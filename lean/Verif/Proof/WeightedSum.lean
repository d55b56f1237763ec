import Verif.Model.WeightedSum
import Verif.Spec.Calls
import Verif.Proof.Group

/-! `weightedSum` with buckets and callback. -/

namespace Bls.Jac

variable {F : Type} [Ops F] {σ ε : Type}

/-- One call of the callback, if there is one. -/
def call (yield : Yield σ ε) (s : σ) : Except (Stop ε) σ :=
  match yield with
  | none => .ok s
  | some y => (y s).mapError .thrown

/-- `n` calls of the callback. -/
def calls (yield : Yield σ ε) : ℕ → σ → Except (Stop ε) σ
  | 0, s => .ok s
  | n + 1, s => call yield s >>= calls yield n

theorem calls_none (n : ℕ) (s : σ) : calls (none : Yield σ ε) n s = .ok s := by
  induction n with
  | zero => rfl
  | succ n ih => exact ih

theorem calls_some (y : σ → Except ε σ) (n : ℕ) (s : σ) : calls (some y) n s = (callTimes y n s).mapError .thrown := by
  induction n generalizing s with
  | zero => rfl
  | succ n ih =>
    rw [calls, callTimes, call]
    rcases h : y s with e | t
    · rfl
    · exact ih t

theorem calls_add (yield : Yield σ ε) (m n : ℕ) (s : σ) : calls yield (m + n) s = calls yield m s >>= calls yield n := by
  induction m generalizing s with
  | zero => rw [Nat.zero_add]; rfl
  | succ m ih =>
    rw [Nat.succ_add, calls, calls, bind_assoc]
    congr 1
    funext t
    exact ih t

theorem calls_bind (yield : Yield σ ε) (m n : ℕ) (s : σ) {β : Type} (f : σ → Except (Stop ε) β) :
    (calls yield m s >>= fun s => calls yield n s >>= f) = calls yield (m + n) s >>= f := by
  rw [calls_add, bind_assoc]

/-- One more call at a multiple of 256. -/
def tick (i : ℕ) : ℕ := if i % 256 = 0 then 1 else 0

theorem calls_one (yield : Yield σ ε) (s : σ) : calls yield 1 s = call yield s := by
  rw [calls]
  rcases call yield s with e | t <;> rfl

theorem poll_eq (yield : Yield σ ε) (i : ℕ) (s : σ) : poll yield i s = calls yield (tick i) s := by
  have h8 : i &&& 255 = i % 256 := Nat.and_two_pow_sub_one_eq_mod i 8
  unfold poll
  rw [h8, tick]
  by_cases h : i % 256 = 0
  · rw [if_pos h, calls_one]
    unfold call
    simp only [if_pos h]
    cases yield <;> rfl
  · rw [if_neg h]
    simp only [if_neg h]
    cases yield <;> rfl

/-- The number of multiples of 256 among `i … i+r-1`. -/
def ticks (r i : ℕ) : ℕ := (i + r + 255) / 256 - (i + 255) / 256

theorem ticks_succ (r i : ℕ) : ticks (r + 1) i = tick i + ticks r (i + 1) := by
  rw [ticks, ticks, tick]
  split_ifs <;> omega

theorem ticks_zero (i : ℕ) : ticks 0 i = 0 := by rw [ticks]; omega

theorem resetLoop_eq (yield : Yield σ ε) (mid pre : List (Jac F)) (s : σ) :
    resetLoop yield mid.length pre.length (pre ++ mid) s = calls yield (ticks mid.length pre.length) s >>= fun s =>
      .ok (pre ++ List.replicate mid.length zero, s) := by
  induction mid generalizing pre s with
  | nil => rw [List.length_nil, ticks_zero, List.replicate_zero]; rfl
  | cons b mid ih =>
    rw [List.length_cons, resetLoop, poll_eq, ticks_succ, ← calls_bind]
    congr 1
    funext t
    rw [if_pos (by rw [List.length_append, List.length_cons]; omega)]
    have e : (pre ++ b :: mid).set pre.length zero = (pre ++ [zero]) ++ mid := by simp
    have e1 : pre.length + 1 = (pre ++ [(zero : Jac F)]).length := by simp
    rw [e, e1, ih (pre ++ [zero]) t]
    congr 1
    funext u
    rw [List.append_assoc, List.replicate_succ, List.singleton_append]

theorem fillBuckets_length (c j : ℕ) (pairs : List (Jac F × List UInt64)) (bucket : List (Jac F)) :
    (fillBuckets c j pairs bucket).length = bucket.length := by
  induction pairs generalizing bucket with
  | nil => rfl
  | cons e pairs ih =>
    rw [fillBuckets, List.foldl_cons, ← fillBuckets, ih]
    simp only
    split_ifs
    · rw [List.length_modify]
    · rfl

theorem fillLoop_eq (yield : Yield σ ε) (points : List (Jac F)) (scalars : List (List UInt64)) (c j : ℕ) (hc : c ≤ 23)
    (r i : ℕ) (bucket : List (Jac F)) (s : σ) (hr : i + r = min scalars.length points.length) (hb : bucket.length = 2 ^ c - 1) :
    fillLoop yield points scalars c j r i bucket s = calls yield (ticks r i) s >>= fun s =>
      .ok (fillBuckets c j ((points.zip scalars).drop i) bucket, s) := by
  induction r generalizing i bucket s with
  | zero =>
    rw [ticks_zero, List.drop_of_length_le (by rw [List.length_zip]; omega)]
    rfl
  | succ r ih =>
    rw [fillLoop, poll_eq, ticks_succ, ← calls_bind]
    congr 1
    funext t
    have h1 : i < scalars.length := by omega
    have h2 : i < points.length := by omega
    have hz : i < (points.zip scalars).length := by rw [List.length_zip]; omega
    rw [List.getElem?_eq_getElem h1, List.getElem?_eq_getElem h2, List.drop_eq_getElem_cons hz, List.getElem_zip, fillBuckets,
      List.foldl_cons, ← fillBuckets]
    simp only
    by_cases h0 : windowIndex c j scalars[i] ≠ 0
    · have hlt : windowIndex c j scalars[i] - 1 < bucket.length := by
        have := windowIndex_lt hc j scalars[i]
        omega
      rw [if_pos h0, if_pos h0, List.getElem?_eq_getElem hlt]
      simp only
      rw [ih (i + 1) _ t (by omega) (by rw [List.length_set, hb]), List.modify_eq_set_getElem?, List.getElem?_eq_getElem hlt]
      rfl
    · rw [if_neg h0, if_neg h0, ih (i + 1) _ t (by omega) hb]

theorem sumLoop_eq (yield : Yield σ ε) (bucket : List (Jac F)) (i : ℕ) (hi : i ≤ bucket.length) (acc sum : Jac F) (s : σ) :
    sumLoop yield bucket i acc sum s = calls yield ((i + 255) / 256) s >>= fun s =>
      .ok (((bucket.take i).foldr (fun b (st : Jac F × Jac F) => (st.1.add (st.2.add b), st.2.add b)) (acc, sum)).1, s) := by
  induction i generalizing acc sum s with
  | zero => rfl
  | succ i ih =>
    have e : (i + 1 + 255) / 256 = tick i + (i + 255) / 256 := by rw [tick]; split_ifs <;> omega
    rw [sumLoop, poll_eq, e, ← calls_bind]
    congr 1
    funext t
    rw [List.getElem?_eq_getElem (by omega)]
    simp only
    rw [ih (by omega), List.take_succ_eq_append_getElem (by omega), List.foldr_append, List.foldr_cons, List.foldr_nil]

theorem window_eq (c : ℕ) (pairs : List (Jac F × List UInt64)) (j : ℕ) : window c pairs j =
    (((fillBuckets c j pairs (List.replicate (2 ^ c - 1) zero)).foldr
      (fun b (st : Jac F × Jac F) => (st.1.add (st.2.add b), st.2.add b)) (zero, zero))).1 := rfl

/-- The number of calls in one window. -/
def perWindow (size c : ℕ) : ℕ := 2 * ((2 ^ c - 1 + 255) / 256) + (size + 255) / 256

theorem windowLoop_eq (yield : Yield σ ε) (points : List (Jac F)) (scalars : List (List UInt64)) (c : ℕ) (hc : c ≤ 23)
    (r j : ℕ) (bucket windows : List (Jac F)) (s : σ) (hb : bucket.length = 2 ^ c - 1) :
    windowLoop yield points scalars (min scalars.length points.length) c r j bucket windows s =
      calls yield (r * perWindow (min scalars.length points.length) c) s >>= fun s =>
      .ok (windows ++ (List.range' j r).map (window c (points.zip scalars)), s) := by
  induction r generalizing j bucket windows s with
  | zero => rw [Nat.zero_mul, List.range'_zero, List.map_nil, List.append_nil]; rfl
  | succ r ih =>
    have e : (r + 1) * perWindow (min scalars.length points.length) c = (2 ^ c - 1 + 255) / 256 +
        ((min scalars.length points.length + 255) / 256 + ((2 ^ c - 1 + 255) / 256 +
        r * perWindow (min scalars.length points.length) c)) := by
      rw [Nat.succ_mul, perWindow]; ring
    have t0 : ∀ r, ticks r 0 = (r + 255) / 256 := fun r => by rw [ticks]; omega
    have h1 := resetLoop_eq yield bucket [] s
    rw [List.length_nil, List.nil_append, List.nil_append, hb, t0] at h1
    rw [windowLoop, h1, e, ← calls_bind, bind_assoc]
    congr 1
    funext s1
    have h2 := fillLoop_eq yield points scalars c j hc (min scalars.length points.length) 0
      (List.replicate (2 ^ c - 1) zero) s1 (Nat.zero_add _) List.length_replicate
    rw [t0, List.drop_zero] at h2
    show (fillLoop yield points scalars c j (min scalars.length points.length) 0 (List.replicate (2 ^ c - 1) zero) s1 >>= _) = _
    rw [h2, bind_assoc, ← calls_bind]
    congr 1
    funext s2
    have hl : (fillBuckets c j (points.zip scalars) (List.replicate (2 ^ c - 1) zero)).length = 2 ^ c - 1 := by
      rw [fillBuckets_length, List.length_replicate]
    have h3 := sumLoop_eq yield (fillBuckets c j (points.zip scalars) (List.replicate (2 ^ c - 1) zero)) (2 ^ c - 1) hl.ge
      zero zero s2
    rw [List.take_of_length_le hl.le, ← window_eq] at h3
    show (sumLoop yield (fillBuckets c j (points.zip scalars) (List.replicate (2 ^ c - 1) zero)) (2 ^ c - 1) zero zero s2 >>= _) = _
    rw [h3, bind_assoc, ← calls_bind]
    congr 1
    funext s3
    show windowLoop yield points scalars (min scalars.length points.length) c r (j + 1) _ _ s3 = _
    rw [ih (j + 1) _ _ s3 hl, List.append_assoc, List.range'_succ, List.map_cons, List.singleton_append]

theorem combineLoop_eq (c : ℕ) (windows : List (Jac F)) (i : ℕ) (hi : i ≤ windows.length) (acc : Jac F) :
    (combineLoop c windows i acc : Except (Stop ε) (Jac F)) =
      .ok ((windows.take i).foldr (fun w acc => (dblN c acc).add w) acc) := by
  induction i generalizing acc with
  | zero => rfl
  | succ i ih =>
    rw [combineLoop, List.getElem?_eq_getElem (by omega)]
    simp only
    rw [ih (by omega), List.take_succ_eq_append_getElem (by omega), List.foldr_append, List.foldr_cons, List.foldr_nil]

/-- The number of calls. -/
def totalCalls (size : ℕ) : ℕ := (255 / windowBits size + 1) * perWindow size (windowBits size)

theorem windowBits_size {n : ℕ} (h : n < 2 ^ 64) : windowBits n = if n < 32 then 3 else n.size / 3 + 2 := by
  rw [windowBits]
  by_cases h0 : n < 32
  · rw [if_pos h0, if_neg (by omega)]
  · have hs : n.size ≤ 64 := Nat.size_le.2 h
    have e : (UInt64.ofNat n).toNat = n := by rw [UInt64.toNat_ofNat', Nat.mod_eq_of_lt h]
    rw [if_neg h0, if_pos (by omega), Scalar.countlZero_spec, e, Nat.sub_sub_self hs]

theorem totalCalls_eq {n : ℕ} (h : n < 2 ^ 64) : totalCalls n = sumCalls n := by
  rw [totalCalls, perWindow, windowBits_size h, sumCalls]

theorem weightedSumRun_eq (points : List (Jac F)) (scalars : List (List UInt64)) (yield : Yield σ ε) (s : σ) :
    weightedSumRun points scalars yield s = calls yield (totalCalls (min scalars.length points.length)) s >>= fun s =>
      .ok (weightedSum points scalars, s) := by
  have hz : (points.zip scalars).length = min scalars.length points.length := by rw [List.length_zip, min_comm]
  have hc := windowBits_le (min scalars.length points.length)
  rw [weightedSumRun]
  simp only
  rw [windowLoop_eq yield points scalars _ hc _ _ _ _ _ List.length_replicate, bind_assoc, totalCalls]
  congr 1
  funext t
  show (combineLoop _ _ _ _ >>= _) = _
  rw [combineLoop_eq _ _ _ le_rfl, List.take_length, weightedSum, hz, List.range_eq_range', List.nil_append]
  rfl

/-- The outcome with a callback. -/
theorem weightedSumRun_some (points : List (Jac F)) (scalars : List (List UInt64)) (y : σ → Except ε σ) (s : σ)
    (h : min scalars.length points.length < 2 ^ 64) :
    weightedSumRun points scalars (some y) s =
      match callTimes y (sumCalls (min scalars.length points.length)) s with
      | .ok t => .ok (weightedSum points scalars, t)
      | .error e => .error (.thrown e) := by
  rw [weightedSumRun_eq, calls_some, totalCalls_eq h]
  rcases callTimes y (sumCalls (min scalars.length points.length)) s with e | t <;> rfl

/-- The outcome without a callback. -/
theorem weightedSumRun_none (points : List (Jac F)) (scalars : List (List UInt64)) (s : σ) :
    weightedSumRun points scalars (none : Yield σ ε) s = .ok (weightedSum points scalars, s) := by
  rw [weightedSumRun_eq, calls_none]
  rfl

end Bls.Jac
