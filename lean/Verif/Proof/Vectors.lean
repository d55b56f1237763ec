import Verif.Model.Vectors
import Verif.Spec.Vectors
import Verif.Proof.CallbackSteps

/-!
# Lemmas on the memory of vectors
-/

namespace Bls.Vectors

/-- The blocks are those of `own`, made after `c0` requests, and the older ones of `base`. -/
structure Own (c0 : ℕ) (base own : List (ℕ × ℕ)) (h : Heap) : Prop where
  blocks : h.blocks = own ++ base
  own : ∀ x ∈ own, c0 ≤ x.1 ∧ x.1 < h.calls
  base : ∀ x ∈ base, x.1 < c0
  le : c0 ≤ h.calls

theorem delete_calls : ∀ (bs : List (ℕ × ℕ)) (h : Heap), (delete bs h).calls = h.calls
  | [], _ => rfl
  | b :: bs, h => by
    rw [delete, List.foldl_cons, ← delete, delete_calls bs]

theorem delete_blocks : ∀ (bs : List (ℕ × ℕ)) (h : Heap), (delete bs h).blocks = h.blocks.filter fun x => x.1 ∉ bs.map Prod.fst
  | [], h => by
    show h.blocks = _
    rw [eq_comm, List.filter_eq_self]
    intro x _
    simp
  | b :: bs, h => by
    rw [delete, List.foldl_cons, ← delete, delete_blocks bs, List.filter_filter]
    refine List.filter_congr fun x _ => ?_
    rw [Bool.eq_iff_iff]
    simp only [Bool.and_eq_true, decide_eq_true_eq, List.map_cons, List.mem_cons, not_or, ne_eq]
    exact and_comm

variable {c0 : ℕ} {base own : List (ℕ × ℕ)} {h h' : Heap} {e : Env} {ε : Type}

theorem Own.delete {bs : List (ℕ × ℕ)} (o : Own c0 base own h) (hb : ∀ b ∈ bs, c0 ≤ b.1) :
    Own c0 base (own.filter fun x => x.1 ∉ bs.map Prod.fst) (Vectors.delete bs h) := by
  refine ⟨?_, fun x hx => ?_, o.base, ?_⟩
  · rw [delete_blocks, o.blocks, List.filter_append]
    congr 1
    rw [List.filter_eq_self]
    intro x hx
    have h1 := o.base x hx
    rw [decide_eq_true_iff]
    intro hm
    obtain ⟨b, hb', he⟩ := List.mem_map.1 hm
    have := hb b hb'
    omega
  · rw [delete_calls]
    exact o.own x (List.mem_filter.1 hx).1
  · rw [delete_calls]
    exact o.le

/-- The newest blocks. -/
theorem Own.deleteTop {bs : List (ℕ × ℕ)} {n : ℕ} (o : Own c0 base (bs ++ own) h) (hb : ∀ b ∈ bs, n ≤ b.1) (ho : ∀ x ∈ own, x.1 < n) :
    Own c0 base own (Vectors.delete bs h) := by
  have := o.delete (bs := bs) fun b hb => (o.own b (List.mem_append_left _ hb)).1
  have e1 : (bs ++ own).filter (fun x => decide (x.1 ∉ bs.map Prod.fst)) = own := by
    rw [List.filter_append, List.filter_eq_nil_iff.2, List.nil_append, List.filter_eq_self]
    · intro x hx
      rw [decide_eq_true_iff]
      intro hm
      obtain ⟨b, hb', he⟩ := List.mem_map.1 hm
      have := hb b hb'
      have := ho x hx
      omega
    · intro x hx
      rw [decide_eq_true_iff, not_not]
      exact List.mem_map_of_mem hx
  rwa [e1] at this

/-- The older blocks `bs` below the newer `own`. -/
theorem Own.deleteOld {bs : List (ℕ × ℕ)} {n : ℕ} (o : Own c0 base (own ++ bs) h) (hb : ∀ b ∈ bs, b.1 < n) (ho : ∀ x ∈ own, n ≤ x.1) :
    Own c0 base own (Vectors.delete bs h) := by
  have := o.delete (bs := bs) fun b hb => (o.own b (List.mem_append_right _ hb)).1
  have e1 : (own ++ bs).filter (fun x => decide (x.1 ∉ bs.map Prod.fst)) = own := by
    have hn : bs.filter (fun x => decide (x.1 ∉ bs.map Prod.fst)) = [] := List.filter_eq_nil_iff.2 fun x hx => by
      rw [decide_eq_true_iff, not_not]
      exact List.mem_map_of_mem hx
    rw [List.filter_append, hn, List.append_nil, List.filter_eq_self]
    intro x hx
    rw [decide_eq_true_iff]
    intro hm
    obtain ⟨b, hb', he⟩ := List.mem_map.1 hm
    have := hb b hb'
    have := ho x hx
    omega
  rwa [e1] at this

theorem Own.deleteAll (o : Own c0 base own h) : Own c0 base [] (Vectors.delete own h) := by
  have := o.delete (bs := own) fun b hb => (o.own b hb).1
  rwa [List.filter_eq_nil_iff.2] at this
  intro x hx
  rw [decide_eq_true_iff, not_not]
  exact List.mem_map_of_mem hx

theorem _root_.Bls.Refused.mono {g : ℕ → ℕ → Bool} {a b m a' b' m' : ℕ} (r : Refused g a b m) (ha : a' ≤ a) (hb : b ≤ b') (hm : m ≤ m') :
    Refused g a' b' m' := by
  obtain ⟨k, n, h1, h2, h3, h4⟩ := r
  exact ⟨k, n, ha.trans h1, h2.trans_le hb, h3.trans hm, h4⟩

theorem new_own (n : ℕ) (o : Own c0 base own h) :
    (∃ b h', new (ε := ε) e n h = (.ok b, h') ∧ Own c0 base (b :: own) h' ∧ h.calls ≤ h'.calls ∧ h.calls ≤ b.1) ∨
    ∃ h', new (ε := ε) e n h = (.error .badAlloc, h') ∧ Own c0 base own h' ∧ h.calls ≤ h'.calls ∧ Refused e.grants h.calls h'.calls n := by
  have hle := o.le
  unfold new
  by_cases hg : e.grants h.calls n = true
  · rw [if_pos hg]
    refine Or.inl ⟨_, _, rfl, ⟨?_, fun x hx => ?_, o.base, ?_⟩, Nat.le_succ _, le_rfl⟩
    · rw [o.blocks, List.cons_append]
    · rcases List.mem_cons.1 hx with rfl | hx
      · exact ⟨hle, Nat.lt_succ_self _⟩
      · exact ⟨(o.own x hx).1, (o.own x hx).2.trans (Nat.lt_succ_self _)⟩
    · exact hle.trans (Nat.le_succ _)
  · rw [if_neg hg]
    refine Or.inr ⟨_, rfl, ⟨o.blocks, fun x hx => ⟨(o.own x hx).1, (o.own x hx).2.trans (Nat.lt_succ_self _)⟩, o.base,
      hle.trans (Nat.le_succ _)⟩, Nat.le_succ _, h.calls, n, le_rfl, Nat.lt_succ_self _, le_rfl, ?_⟩
    rwa [Bool.not_eq_true] at hg

theorem allocate_own (size n : ℕ) (o : Own c0 base own h) :
    (∃ bs h', allocate (ε := ε) e size n h = (.ok bs, h') ∧ Own c0 base (bs ++ own) h' ∧ h.calls ≤ h'.calls ∧ ∀ b ∈ bs, h.calls ≤ b.1) ∨
    (∃ h', allocate (ε := ε) e size n h = (.error .badAlloc, h') ∧ Own c0 base own h' ∧ h.calls ≤ h'.calls ∧
      Refused e.grants h.calls h'.calls (size * n)) ∨
    (allocate (ε := ε) e size n h = (.error .lengthError, h) ∧ 2 ^ 63 - 1 < size * n) := by
  unfold allocate
  by_cases hn : n = 0
  · rw [if_pos hn]
    exact Or.inl ⟨[], h, rfl, o, le_rfl, fun b hb => absurd hb (List.not_mem_nil)⟩
  rw [if_neg hn]
  by_cases hl : 2 ^ 63 - 1 < size * n
  · rw [if_pos hl]
    exact Or.inr (Or.inr ⟨rfl, hl⟩)
  rw [if_neg hl]
  rcases new_own (ε := ε) (e := e) (size * n) o with ⟨b, h', e1, o', hc, hb⟩ | ⟨h', e1, o', hc, hr⟩
  · rw [e1]
    exact Or.inl ⟨[b], h', rfl, o', hc, fun x hx => by rw [List.mem_singleton.1 hx]; exact hb⟩
  · rw [e1]
    exact Or.inr (Or.inl ⟨h', rfl, o', hc, hr⟩)

/-- The outcome `r` of a call that began with `h`. -/
structure Res {α : Type} (e : Env) (c0 : ℕ) (base own : List (ℕ × ℕ)) (h : Heap) (most : ℕ) (imp : Prop) (o : Except (Exc ε) α)
    (r : Except (Exc ε) α × Heap) : Prop where
  own : Own c0 base own r.2
  calls : h.calls ≤ r.2.calls
  outcome : r.1 = o ∨ (r.1 = .error .badAlloc ∧ Refused e.grants h.calls r.2.calls most) ∨ (r.1 = .error .lengthError ∧ imp)

section
variable {F : Type} [Ops F] {σ : Type}

theorem weightedSum_res (size : ℕ) (points : List (Jac F)) (scalars : List (List UInt64)) (yield : Jac.Yield σ ε) (s : σ)
    (o : Own c0 base own h) {most : ℕ} {imp : Prop}
    (h1 : size * (255 / Jac.windowBits (min scalars.length points.length) + 1) ≤ most)
    (h2 : size * (2 ^ Jac.windowBits (min scalars.length points.length) - 1) ≤ most) (hm : 2 ^ 63 - 1 < most → imp) :
    Res e c0 base own h most imp (lift (Jac.weightedSumRun points scalars yield s)) (weightedSum e size points scalars yield s h) := by
  unfold weightedSum
  simp only
  generalize Jac.windowBits (min scalars.length points.length) = c at *
  generalize lift (Jac.weightedSumRun points scalars yield s) = res
  generalize 255 / c + 1 = n1 at *
  generalize 2 ^ c - 1 = n2 at *
  rcases allocate_own (ε := ε) (e := e) size n1 o with ⟨w, ha, e1, o1, c1, b1⟩ | ⟨ha, e1, o1, c1, r1⟩ | ⟨e1, l1⟩
  · rw [e1]
    simp only
    rcases allocate_own (ε := ε) (e := e) size n2 o1 with ⟨b, hb, e2, o2, c2, b2⟩ | ⟨hb, e2, o2, c2, r2⟩ | ⟨e2, l2⟩
    · rw [e2]
      simp only
      have o3 := o2.deleteTop b2 fun x hx => (o1.own x hx).2
      refine ⟨o3.deleteTop b1 fun x hx => (o.own x hx).2, ?_, Or.inl rfl⟩
      simp only [delete_calls]
      exact c1.trans c2
    · rw [e2]
      simp only
      refine ⟨o2.deleteTop b1 fun x hx => (o.own x hx).2, ?_, Or.inr (Or.inl ⟨rfl, ?_⟩)⟩
      · simp only [delete_calls]
        exact c1.trans c2
      · rw [delete_calls]
        exact r2.mono c1 le_rfl h2
    · rw [e2]
      simp only
      refine ⟨o1.deleteTop b1 fun x hx => (o.own x hx).2, ?_, Or.inr (Or.inr ⟨rfl, hm (l2.trans_le h2)⟩)⟩
      simp only [delete_calls]
      exact c1
  · rw [e1]
    exact ⟨o1, c1, Or.inr (Or.inl ⟨rfl, r1.mono le_rfl le_rfl h1⟩)⟩
  · rw [e1]
    exact ⟨o, le_rfl, Or.inr (Or.inr ⟨rfl, hm (l1.trans_le h1)⟩)⟩

end

section
variable {K : Type} [FpOps K] {σ : Type}

theorem calculate_res (pairs : List (G1 K × G2 K)) (yield : Jac.Yield σ ε) (s : σ) (o : Own c0 base own h) {most : ℕ} {imp : Prop}
    (h1 : yield.isSome = true → e.callback ≤ most) (h2 : 19584 * pairs.length ≤ most) (hm : 2 ^ 63 - 1 < most → imp) :
    Res e c0 base own h most imp (lift (Pairing.calculateRun pairs yield s)) (calculate e pairs yield s h) := by
  unfold calculate
  by_cases hp : pairs.isEmpty = true
  · rw [if_pos hp]
    refine ⟨o, le_rfl, Or.inl ?_⟩
    unfold Pairing.calculateRun
    rw [if_pos hp]
    rfl
  rw [if_neg hp]
  generalize lift (Pairing.calculateRun pairs yield s) = res
  have h1' : (if yield.isSome then e.callback else 0) * (if yield.isSome ∧ e.callback ≠ 0 then 1 else 0) ≤ most := by
    by_cases hy : yield.isSome = true
    · rw [if_pos hy]
      have := h1 hy
      split_ifs <;> omega
    · rw [if_neg hy, zero_mul]
      exact Nat.zero_le _
  generalize (if yield.isSome then e.callback else 0) = z at *
  generalize (if yield.isSome ∧ e.callback ≠ 0 then 1 else 0) = k at *
  rcases allocate_own (ε := ε) (e := e) z k o with ⟨w, ha, e1, o1, c1, b1⟩ | ⟨ha, e1, o1, c1, r1⟩ | ⟨e1, l1⟩
  · rw [e1]
    simp only
    rcases allocate_own (ε := ε) (e := e) 19584 pairs.length o1 with ⟨b, hb, e2, o2, c2, b2⟩ | ⟨hb, e2, o2, c2, r2⟩ | ⟨e2, l2⟩
    · rw [e2]
      simp only
      have o3 := o2.deleteTop b2 fun x hx => (o1.own x hx).2
      refine ⟨o3.deleteTop b1 fun x hx => (o.own x hx).2, ?_, Or.inl rfl⟩
      simp only [delete_calls]
      exact c1.trans c2
    · rw [e2]
      simp only
      refine ⟨o2.deleteTop b1 fun x hx => (o.own x hx).2, ?_, Or.inr (Or.inl ⟨rfl, ?_⟩)⟩
      · simp only [delete_calls]
        exact c1.trans c2
      · rw [delete_calls]
        exact r2.mono c1 le_rfl h2
    · rw [e2]
      simp only
      refine ⟨o1.deleteTop b1 fun x hx => (o.own x hx).2, ?_, Or.inr (Or.inr ⟨rfl, hm (l2.trans_le h2)⟩)⟩
      simp only [delete_calls]
      exact c1
  · rw [e1]
    exact ⟨o1, c1, Or.inr (Or.inl ⟨rfl, r1.mono le_rfl le_rfl h1'⟩)⟩
  · rw [e1]
    exact ⟨o, le_rfl, Or.inr (Or.inr ⟨rfl, hm (l1.trans_le h1')⟩)⟩

/-- `add_pair`: either the pair is added, or nothing is changed. -/
theorem addPair_own (hg : ∀ c, e.grow c ≤ max 1 (2 * c)) (v : Vec K) (e1 : G1 K) (e2 : G2 K) (o : Own c0 base v.block h) {most : ℕ}
    {imp : Prop} (h1 : 864 * (v.data.length + 1) ≤ most) (hm : 2 ^ 63 - 1 < most → imp) :
    (∃ v' h', addPair (ε := ε) e v e1 e2 h = (.ok v', h') ∧ v'.data = Pairing.addPair v.data e1 e2 ∧ Own c0 base v'.block h' ∧
      h.calls ≤ h'.calls) ∨
    (∃ h', addPair (ε := ε) e v e1 e2 h = (.error .badAlloc, h') ∧ Own c0 base v.block h' ∧ h.calls ≤ h'.calls ∧
      Refused e.grants h.calls h'.calls most) ∨
    (addPair (ε := ε) e v e1 e2 h = (.error .lengthError, h) ∧ imp) := by
  unfold addPair Pairing.addPair
  by_cases hz : (!(e1.isZero || e2.isZero)) = true
  swap
  · rw [if_neg hz, if_neg hz]
    exact Or.inl ⟨v, h, rfl, rfl, o, le_rfl⟩
  rw [if_pos hz, if_pos hz]
  by_cases hc : v.data.length < v.cap
  · rw [if_pos hc]
    exact Or.inl ⟨_, h, rfl, rfl, o, le_rfl⟩
  rw [if_neg hc]
  have hb : 432 * e.grow v.cap ≤ most := by
    have := hg v.cap
    omega
  rcases allocate_own (ε := ε) (e := e) 432 (e.grow v.cap) o with ⟨w, ha, q1, o1, c1, b1⟩ | ⟨ha, q1, o1, c1, r1⟩ | ⟨q1, l1⟩
  · rw [q1]
    refine Or.inl ⟨_, _, rfl, rfl, o1.deleteOld (fun b hb => (o.own b hb).2) b1, ?_⟩
    rw [delete_calls]
    exact c1
  · rw [q1]
    exact Or.inr (Or.inl ⟨_, rfl, o1, c1, r1.mono le_rfl le_rfl hb⟩)
  · rw [q1]
    exact Or.inr (Or.inr ⟨rfl, hm (l1.trans_le hb)⟩)

end

end Bls.Vectors
