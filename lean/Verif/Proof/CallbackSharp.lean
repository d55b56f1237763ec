import Verif.Proof.CallbackSteps

/-! The bound on the steps between calls of the callback is reached. -/

namespace Bls

theorem waits_prefix {n : ℕ} {l l' : List Step} (hl : l <+: l') (h : WaitsAtMost n l') : WaitsAtMost n l := by
  obtain ⟨t, rfl⟩ := hl
  intro u v w e hv
  exact h u v (w ++ t) (by rw [e, List.append_assoc]) hv

theorem since_le {n : ℕ} {l : List Step} (h : WaitsAtMost n l) : since l ≤ n := by
  have e : l = (l.reverse.dropWhile (· ≠ .call)).reverse ++ (l.reverse.takeWhile (· ≠ .call)).reverse ++ [] := by
    rw [List.append_nil, ← List.reverse_append, List.takeWhile_append_dropWhile, List.reverse_reverse]
  have := h _ _ _ e fun hc => by
    rw [List.mem_reverse] at hc
    simpa using (List.all_eq_true.1 (List.all_takeWhile (p := fun s : Step => decide (s ≠ .call)) (l := l.reverse))) _ hc
  rwa [List.length_reverse] at this

namespace Jac

variable {F : Type} [Ops F]

theorem pollSteps_prefix (i : ℕ) (l : List Step) : l <+: pollSteps i l := by
  rw [pollSteps]
  split_ifs
  · exact List.prefix_append _ _
  · exact List.prefix_refl _

theorem resetSteps_prefix : ∀ (r i : ℕ) (bucket : List (Jac F)) (l : List Step) {b l'},
    resetSteps r i bucket l = some (b, l') → l <+: l'
  | 0, _, _, _, _, _, h => by
    obtain ⟨-, rfl⟩ := Prod.mk.inj (Option.some.inj h)
    exact List.prefix_refl _
  | r + 1, i, bucket, l, b, l', h => by
    rw [resetSteps] at h
    split_ifs at h
    exact (pollSteps_prefix i l).trans (resetSteps_prefix r (i + 1) _ _ h)

theorem fillSteps_prefix (points : List (Jac F)) (scalars : List (List UInt64)) (c j : ℕ) :
    ∀ (r i : ℕ) (bucket : List (Jac F)) (l : List Step) {b l'}, fillSteps points scalars c j r i bucket l = some (b, l') → l <+: l'
  | 0, _, _, _, _, _, h => by
    obtain ⟨-, rfl⟩ := Prod.mk.inj (Option.some.inj h)
    exact List.prefix_refl _
  | r + 1, i, bucket, l, b, l', h => by
    rw [fillSteps] at h
    dsimp only at h
    generalize scalars[i]? = o at h
    generalize points[i]? = o' at h
    cases o with
    | none => exact absurd h (by simp)
    | some sc =>
      cases o' with
      | none => exact absurd h (by simp)
      | some pt =>
        dsimp only at h
        split_ifs at h
        · generalize bucket[windowIndex c j sc - 1]? = o at h
          cases o with
          | none => exact absurd h (by simp)
          | some bk =>
            exact ((pollSteps_prefix i l).trans (List.prefix_append _ _)).trans (fillSteps_prefix points scalars c j r (i + 1) _ _ h)
        · exact (pollSteps_prefix i l).trans (fillSteps_prefix points scalars c j r (i + 1) _ _ h)

theorem sumSteps_prefix (bucket : List (Jac F)) : ∀ (i : ℕ) (acc sum : Jac F) (l : List Step) {b l'},
    sumSteps bucket i acc sum l = some (b, l') → l <+: l'
  | 0, _, _, _, _, _, h => by
    obtain ⟨-, rfl⟩ := Prod.mk.inj (Option.some.inj h)
    exact List.prefix_refl _
  | i + 1, acc, sum, l, b, l', h => by
    rw [sumSteps] at h
    dsimp only at h
    generalize bucket[i]? = o at h
    cases o with
    | none => exact absurd h (by simp)
    | some bk => exact ((pollSteps_prefix i l).trans (List.prefix_append _ _)).trans (sumSteps_prefix bucket i _ _ _ h)

theorem windowSteps_prefix (points : List (Jac F)) (scalars : List (List UInt64)) (size c : ℕ) :
    ∀ (r j : ℕ) (bucket windows : List (Jac F)) (l : List Step) {ws l'},
    windowSteps points scalars size c r j bucket windows l = some (ws, l') → l <+: l'
  | 0, _, _, _, _, _, _, h => by
    obtain ⟨-, rfl⟩ := Prod.mk.inj (Option.some.inj h)
    exact List.prefix_refl _
  | r + 1, j, bucket, windows, l, ws, l', h => by
    rw [windowSteps] at h
    obtain ⟨⟨b1, l1⟩, h1, h⟩ := Option.bind_eq_some_iff.1 h
    obtain ⟨⟨b2, l2⟩, h2, h⟩ := Option.bind_eq_some_iff.1 h
    obtain ⟨⟨a3, l3⟩, h3, h⟩ := Option.bind_eq_some_iff.1 h
    exact (((resetSteps_prefix _ _ _ _ h1).trans (fillSteps_prefix _ _ _ _ _ _ _ _ h2)).trans (sumSteps_prefix _ _ _ _ _ h3)).trans
      (windowSteps_prefix points scalars size c r _ _ _ _ h)

theorem combineSteps_prefix (c : ℕ) (windows : List (Jac F)) : ∀ (i : ℕ) (acc : Jac F) (l : List Step) {b l'},
    combineSteps c windows i acc l = some (b, l') → l <+: l'
  | 0, _, _, _, _, h => by
    obtain ⟨-, rfl⟩ := Prod.mk.inj (Option.some.inj h)
    exact List.prefix_refl _
  | i + 1, acc, l, b, l', h => by
    rw [combineSteps] at h
    generalize windows[i]? = o at h
    cases o with
    | none => exact absurd h (by simp)
    | some w =>
      exact (by rw [List.append_assoc]; exact List.prefix_append _ _ : l <+: l ++ List.replicate c .dbl ++ [.add]).trans
        (combineSteps_prefix c windows i _ _ h)

theorem pollSteps_since' (i : ℕ) (l : List Step) : since (pollSteps i l) = if i % 256 = 0 then 0 else since l := by
  have e : i &&& 255 = i % 256 := Nat.and_two_pow_sub_one_eq_mod i 8
  rw [pollSteps, e]
  split_ifs
  · exact since_call l
  · rfl

/-- If no digit is zero every round of the distribution adds a step. -/
theorem fillSteps_since (points : List (Jac F)) (scalars : List (List UInt64)) (c j : ℕ)
    (h0 : ∀ sc ∈ scalars, windowIndex c j sc ≠ 0) :
    ∀ (r i : ℕ) (bucket : List (Jac F)) (l : List Step) {b l'}, (i % 256 ≠ 0 → since l = i % 256) → 0 < r → (i + r) % 256 = 0 →
    fillSteps points scalars c j r i bucket l = some (b, l') → since l' = 256
  | 0, _, _, _, _, _, _, h, _, _ => absurd h (lt_irrefl _)
  | r + 1, i, bucket, l, b, l', hs, _, hm, h => by
    have p2 := pollSteps_since' i l
    have p3 : since (pollSteps i l) = i % 256 := by
      rw [p2]
      split_ifs with h0
      · exact h0.symm
      · exact hs h0
    have e := since_op (pollSteps i l) (s := .add) (by decide)
    rw [p3] at e
    have hlt := Nat.mod_lt i (by norm_num : 256 > 0)
    rw [fillSteps] at h
    dsimp only at h
    generalize ho : scalars[i]? = o at h
    generalize points[i]? = o' at h
    cases o with
    | none => exact absurd h (by simp)
    | some sc =>
      cases o' with
      | none => exact absurd h (by simp)
      | some pt =>
        dsimp only at h
        rw [if_pos (h0 sc (List.mem_of_getElem? ho))] at h
        generalize bucket[windowIndex c j sc - 1]? = o at h
        cases o with
        | none => exact absurd h (by simp)
        | some bk =>
          dsimp only at h
          by_cases hr : r = 0
          · subst hr
            obtain ⟨-, rfl⟩ := Prod.mk.inj (Option.some.inj h)
            rw [e]
            omega
          · exact fillSteps_since points scalars c j h0 r (i + 1) _ _ (fun h1 => by rw [e]; omega) (by omega) (by omega) h

/-- The summation makes two steps for every bucket before its first call. -/
theorem sumSteps_since {n : ℕ} (bucket : List (Jac F)) : ∀ (i : ℕ) (acc sum : Jac F) (l : List Step) {b l'},
    WaitsAtMost n l' → sumSteps bucket (i + 1) acc sum l = some (b, l') → since l + 2 * (i % 256) ≤ n
  | 0, _, _, l, _, _, hw, h => since_le (waits_prefix (sumSteps_prefix _ _ _ _ _ h) hw)
  | i + 1, acc, sum, l, b, l', hw, h => by
    have h' := h
    rw [sumSteps] at h
    dsimp only at h
    generalize bucket[i + 1]? = o at h
    cases o with
    | none => exact absurd h (by simp)
    | some bk =>
      dsimp only at h
      have g := sumSteps_since bucket i _ _ _ hw h
      have e : pollSteps (i + 1) l ++ [Step.add, Step.add] = pollSteps (i + 1) l ++ List.replicate 2 .add := rfl
      rw [e, since_replicate _ (by decide), pollSteps_since'] at g
      by_cases h0 : (i + 1) % 256 = 0
      · rw [h0]
        exact since_le (waits_prefix (sumSteps_prefix _ _ _ _ _ h') hw)
      · rw [if_neg h0] at g
        omega

theorem weightedSumSteps_sharp (points : List (Jac F)) (scalars : List (List UInt64)) {n : ℕ} (hp : points.length = n)
    (hs : scalars.length = n) (hn : 2 ^ 17 ≤ n) (hn' : n < 2 ^ 64) (hm : n % 256 = 0) (ho : ∀ sc ∈ scalars, wordsVal sc % 2 = 1)
    {b l} (h : weightedSumSteps points scalars = some (b, l)) : ¬ WaitsAtMost 763 l := by
  intro hw
  rw [weightedSumSteps] at h
  dsimp only at h
  rw [hs, hp, Nat.min_self] at h
  have hc : 8 ≤ windowBits n := by
    rw [windowBits_size hn', if_neg (by omega)]
    have : 17 < n.size := Nat.lt_size.2 hn
    omega
  have hc2 := windowBits_le n
  generalize windowBits n = c at *
  obtain ⟨⟨ws, l1⟩, h1, h⟩ := Option.bind_eq_some_iff.1 h
  replace hw := waits_prefix (combineSteps_prefix _ _ _ _ _ h) hw
  rw [windowSteps] at h1
  obtain ⟨⟨b1, l1⟩, g1, h1⟩ := Option.bind_eq_some_iff.1 h1
  obtain ⟨⟨b2, l2⟩, g2, h1⟩ := Option.bind_eq_some_iff.1 h1
  obtain ⟨⟨a3, l3⟩, g3, h1⟩ := Option.bind_eq_some_iff.1 h1
  replace hw := waits_prefix (windowSteps_prefix _ _ _ _ _ _ _ _ _ h1) hw
  have e2 := fillSteps_since points scalars c 0 (fun sc hsc => by
    rw [windowIndex_eq hc2, Nat.mul_zero, pow_zero, Nat.div_one]
    intro e
    have h2 : 2 ∣ wordsVal sc := (dvd_pow_self 2 (by omega)).trans (Nat.dvd_of_mod_eq_zero e)
    have := ho sc hsc
    omega) n 0 _ _ (fun h => absurd rfl h) (by omega) (by omega) g2
  obtain ⟨i, hi⟩ : ∃ i, 2 ^ c = i + 2 := ⟨2 ^ c - 2, by
    have := Nat.pow_le_pow_right (by norm_num : 0 < 2) hc
    omega⟩
  have hi' : i % 256 = 254 := by
    have : 2 ^ 8 ∣ 2 ^ c := pow_dvd_pow 2 hc
    omega
  rw [show 2 ^ c - 1 = i + 1 by omega] at g3
  have := sumSteps_since _ _ _ _ _ hw g3
  omega

end Jac
end Bls
