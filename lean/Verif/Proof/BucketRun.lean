import Verif.Spec.BucketRun
import Verif.Proof.CallbackSteps

/-! # The accesses of `weightedSum` -/

namespace Bls.Jac

variable {F : Type} [Ops F]

/-- The accesses of the distribution loop, by digits. -/
def puts (c j : ℕ) : List ℕ → ℕ → List ElementAccess
  | [], _ => []
  | v :: vs, i => .scalar i :: (if digitOf c j v = 0 then [] else [.put (digitOf c j v - 1) i]) ++ puts c j vs (i + 1)

theorem puts_eq (c j : ℕ) (vs : List ℕ) (i : ℕ) : puts c j vs i =
    (vs.zipIdx i).flatMap fun e => .scalar e.2 :: if digitOf c j e.1 = 0 then [] else [.put (digitOf c j e.1 - 1) e.2] := by
  induction vs generalizing i with
  | nil => rfl
  | cons v vs ih => rw [puts, ih, List.zipIdx_cons, List.flatMap_cons]

theorem fillAccesses_eq {c : ℕ} (hc : c ≤ 23) (j : ℕ) (pairs : List (Jac F × List UInt64)) (i : ℕ) (bucket : List (Jac F)) :
    fillAccesses c j pairs i bucket = (fillBuckets c j pairs bucket, puts c j (pairs.map fun e => wordsVal e.2) i) := by
  induction pairs generalizing i bucket with
  | nil => rfl
  | cons ps rest ih =>
    have hi : windowIndex c j ps.2 = digitOf c j (wordsVal ps.2) := windowIndex_eq hc j ps.2
    rw [fillAccesses, fillBuckets, List.foldl_cons, List.map_cons, puts]
    simp only [hi]
    by_cases h : digitOf c j (wordsVal ps.2) = 0
    · rw [if_neg (by simpa using h), if_neg (by simpa using h), if_pos h, ih]
      rfl
    · rw [if_pos h, if_pos h, if_neg h, ih]
      rfl

theorem windowAccesses_eq {c : ℕ} (hc : c ≤ 23) (pairs : List (Jac F × List UInt64)) (j : ℕ) :
    windowAccesses c pairs j = (window c pairs j, windowPattern c (pairs.map fun e => wordsVal e.2) j) := by
  rw [windowAccesses, fillAccesses_eq hc, window, windowPattern, puts_eq]

theorem weightedSumAccesses_eq (points : List (Jac F)) (scalars : List (List UInt64))
    (hn : min scalars.length points.length < 2 ^ 64) : weightedSumAccesses points scalars =
      (weightedSum points scalars, accessPattern ((scalars.take (min scalars.length points.length)).map wordsVal)) := by
  have hl : (points.zip scalars).length = min scalars.length points.length := by
    rw [List.length_zip, min_comm]
  have hv : (points.zip scalars).map (fun e => wordsVal e.2) = (scalars.take (min scalars.length points.length)).map wordsVal := by
    rw [← hl]
    generalize scalars = ss
    clear hn hl
    induction points generalizing ss with
    | nil => simp
    | cons p ps ih =>
      cases ss with
      | nil => simp
      | cons s ss => simp [ih]
  have hvl : ((scalars.take (min scalars.length points.length)).map wordsVal).length = min scalars.length points.length := by
    rw [List.length_map, List.length_take]; omega
  have hc := windowBits_le (points.zip scalars).length
  have hw := windowBits_width hn
  unfold weightedSumAccesses weightedSum accessPattern
  simp only []
  rw [show windowAccesses (windowBits (points.zip scalars).length) (points.zip scalars) = _ from
    funext fun j => windowAccesses_eq hc (points.zip scalars) j]
  rw [hv, hvl, hl, hw, sumWindows]
  rw [List.map_map, List.map_map, List.length_map, List.length_range, List.flatMap_def]
  rfl

/-- Lists of accesses that do not begin with a `put`. -/
def NoPut (l : List ElementAccess) : Prop := ∀ k i, l.head? ≠ some (.put k i)

theorem noPut_puts (c j : ℕ) (vs : List ℕ) (i : ℕ) (T : List ElementAccess) (hT : NoPut T) : NoPut (puts c j vs i ++ T) := by
  cases vs with
  | nil => exact hT
  | cons v vs => intro k l h; simp [puts] at h

theorem puts_inj (c j : ℕ) (vs vs' : List ℕ) (hl : vs.length = vs'.length) (i : ℕ) (T T' : List ElementAccess) (hT : NoPut T)
    (hT' : NoPut T') (h : puts c j vs i ++ T = puts c j vs' i ++ T') : vs.map (digitOf c j) = vs'.map (digitOf c j) ∧ T = T' := by
  induction vs generalizing vs' i with
  | nil =>
    cases vs' with
    | nil => exact ⟨rfl, h⟩
    | cons => simp at hl
  | cons v vs ih =>
    cases vs' with
    | nil => simp at hl
    | cons v' vs' =>
      rw [puts, puts, List.cons_append, List.cons_append, List.cons_append, List.cons_append, List.cons.injEq] at h
      have h := h.2
      have hl' : vs.length = vs'.length := by simpa using hl
      have n := noPut_puts c j vs (i + 1) T hT
      have n' := noPut_puts c j vs' (i + 1) T' hT'
      rw [List.append_assoc, List.append_assoc] at h
      rw [List.map_cons, List.map_cons]
      by_cases a : digitOf c j v = 0 <;> by_cases b : digitOf c j v' = 0
      · rw [if_pos a, if_pos b] at h
        obtain ⟨e, e'⟩ := ih vs' hl' (i + 1) h
        exact ⟨by rw [e, a, b], e'⟩
      · rw [if_pos a, if_neg b] at h
        exact absurd (by rw [List.nil_append] at h; rw [h]; rfl) (n (digitOf c j v' - 1) i)
      · rw [if_neg a, if_pos b] at h
        exact absurd (by rw [List.nil_append] at h; rw [← h]; rfl) (n' (digitOf c j v - 1) i)
      · rw [if_neg a, if_neg b, List.singleton_append, List.singleton_append, List.cons.injEq, ElementAccess.put.injEq] at h
        obtain ⟨e, e'⟩ := ih vs' hl' (i + 1) h.2
        refine ⟨?_, e'⟩
        rw [e, show digitOf c j v = digitOf c j v' by omega]

theorem windows_inj {c : ℕ} (hc : 0 < c) (vs vs' : List ℕ) (hl : vs.length = vs'.length) (js : List ℕ) (T T' : List ElementAccess)
    (h : js.flatMap (windowPattern c vs) ++ T = js.flatMap (windowPattern c vs') ++ T') :
    ∀ j ∈ js, vs.map (digitOf c j) = vs'.map (digitOf c j) := by
  induction js with
  | nil => simp
  | cons j js ih =>
    have h2 : 2 ≤ 2 ^ c := by
      calc 2 = 2 ^ 1 := rfl
        _ ≤ 2 ^ c := Nat.pow_le_pow_right (by norm_num) hc
    have np : ∀ l, NoPut ((List.range (2 ^ c - 1)).reverse.map ElementAccess.sum ++ l) := by
      intro l k i e
      obtain ⟨m, hm⟩ : ∃ m, 2 ^ c - 1 = m + 1 := ⟨2 ^ c - 2, by omega⟩
      rw [hm, List.range_succ, List.reverse_append] at e
      simp at e
    rw [List.flatMap_cons, List.flatMap_cons, windowPattern, windowPattern, ← puts_eq, ← puts_eq] at h
    simp only [List.append_assoc] at h
    have h := List.append_cancel_left h
    obtain ⟨e, e'⟩ := puts_inj c j vs vs' hl 0 _ _ (np _) (np _) h
    have h := List.append_cancel_left e'
    intro k hk
    rcases List.mem_cons.1 hk with rfl | hk
    · exact e
    · exact ih h k hk

theorem digits_inj (c : ℕ) {a b : ℕ} (m : ℕ) (h : ∀ j < m, digitOf c j a = digitOf c j b) : a % 2 ^ (c * m) = b % 2 ^ (c * m) := by
  induction m with
  | zero => simp [Nat.mod_one]
  | succ m ih =>
    have e := ih fun j hj => h j (by omega)
    have d := h m (by omega)
    rw [digitOf, digitOf] at d
    rw [Nat.mul_succ, pow_add, Nat.mod_mul, Nat.mod_mul, e, d]

theorem accessPattern_inj (vs vs' : List ℕ) (hl : vs.length = vs'.length) (hv : ∀ v ∈ vs, v < 2 ^ 256) (hv' : ∀ v ∈ vs', v < 2 ^ 256) :
    accessPattern vs = accessPattern vs' ↔ vs = vs' := by
  refine ⟨fun h => ?_, fun h => by rw [h]⟩
  unfold accessPattern at h
  rw [← hl] at h
  have hc : 0 < sumWidth vs.length := by unfold sumWidth; split <;> omega
  have key := windows_inj hc vs vs' hl _ _ _ h
  have hw : 256 ≤ sumWidth vs.length * sumWindows vs.length := by
    unfold sumWindows
    have := Nat.lt_mul_div_succ 255 hc
    omega
  refine List.ext_getElem hl fun i h1 h2 => ?_
  have e := digits_inj (sumWidth vs.length) (a := vs[i]) (b := vs'[i]) (sumWindows vs.length) fun j hj => by
    have := key j (List.mem_range.2 hj)
    have := congrArg (fun l => l[i]?) this
    simpa [h1, h2] using this
  have big : (2 : ℕ) ^ 256 ≤ 2 ^ (sumWidth vs.length * sumWindows vs.length) := Nat.pow_le_pow_right (by norm_num) hw
  rwa [Nat.mod_eq_of_lt (lt_of_lt_of_le (hv _ (List.getElem_mem h1)) big),
    Nat.mod_eq_of_lt (lt_of_lt_of_le (hv' _ (List.getElem_mem h2)) big)] at e

end Bls.Jac
