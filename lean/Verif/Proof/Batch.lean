import Verif.Proof.Threshold

/-! Many signatures tested at once with weights. -/

namespace Bls.Sig
open Bls Rfc Pairing

attribute [local irreducible] p q hEff2 eps pairVal

variable {K : Type} [Field K] [FpOps K] [LawfulFp K] [DecidableEq K] {n : ℕ}

theorem sum_map_ofFn {α G : Type*} [AddCommMonoid G] (f : Fin n → α) (g : α → G) :
    ((List.ofFn f).map g).sum = ∑ i, g (f i) := by
  rw [List.map_ofFn, List.sum_ofFn]; rfl

theorem choice_of {l : List (G1 K × List UInt8)} {pks : List (G1 K)} {ms : List (List UInt8)} {T : E2 K} {s : G2 K}
    (h1 : l.map Prod.fst = pks) (h2 : l.map Prod.snd = ms) (h3 : (l.map contrib).sum = T) (h : ∀ x ∈ l, x.2.length < 2 ^ 31) :
    ∃ b, aggregateVerify pks ms s false = some b ∧ (b = true ↔
      (∀ x ∈ l, x.1.isOnCurve FpC.B = true ∧ x.1.inCorrectSubgroup = true) ∧ s.Rep T) := by
  subst h1 h2 h3
  obtain ⟨b, e, hb⟩ := aggregateVerify_choice l s false h
  exact ⟨b, e, hb.trans ⟨fun h => h.2, fun h => ⟨fun h' => absurd h' (by simp), h⟩⟩⟩

/-- The test with weights, in terms of the differences between the points that would be accepted and the given ones. -/
theorem batch_iff {pk : Fin n → G1 K} {m : Fin n → List UInt8} {s : Fin n → G2 K} {S : Fin n → E2 K} (w : Fin n → List UInt64)
    (hw : ∀ i, (w i).length = 4) (hpk : ∀ i, (pk i).isOnCurve FpC.B = true ∧ (pk i).inCorrectSubgroup = true)
    (hm : ∀ i, (m i).length < 2 ^ 31) (hs : ∀ i, (s i).Rep (S i)) :
    ∃ b, aggregateVerify (List.ofFn fun i => (pk i).scale (w i)) (List.ofFn m)
      (Jac.weightedSum (List.ofFn s) (List.ofFn w)) false = some b ∧
      (b = true ↔ ∑ i, wordsVal (w i) • (S i - contrib (pk i, m i)) = 0) := by
  have e1 : (List.ofFn fun i => ((pk i).scale (w i), m i)).map Prod.fst = List.ofFn fun i => (pk i).scale (w i) :=
    List.map_ofFn ..
  have e2 : (List.ofFn fun i => ((pk i).scale (w i), m i)).map Prod.snd = List.ofFn m := List.map_ofFn ..
  have e3 : ((List.ofFn fun i => ((pk i).scale (w i), m i)).map contrib).sum = ∑ i, contrib ((pk i).scale (w i), m i) :=
    sum_map_ofFn _ _
  have hc := choice_of (s := Jac.weightedSum (List.ofFn s) (List.ofFn w)) e1 e2 e3 fun x hx => by
    obtain ⟨i, rfl⟩ := (List.mem_ofFn' _ _).1 hx; exact hm i
  have hr := weightedSum2_ofFn hs w hw
  have hsc : ∀ i, ∃ k, (pk i).Rep (k • gen1 K) ∧ ((pk i).scale (w i)).Rep ((wordsVal (w i) * k) • gen1 K) := by
    intro i
    obtain ⟨k, -, hk⟩ := member1.1 (hpk i)
    refine ⟨k, hk, ?_⟩
    rw [mul_nsmul']
    exact Jac.scale_rep (goodCurve1 K) hk (w i)
  have hcon : ∀ i, contrib ((pk i).scale (w i), m i) = wordsVal (w i) • contrib (pk i, m i) := by
    intro i
    obtain ⟨k, h1, h2⟩ := hsc i
    rw [contrib_eq (hm i) h1, contrib_eq (hm i) h2]; exact mul_nsmul' _ _ _
  obtain ⟨b, e, hb⟩ := hc
  refine ⟨b, e, hb.trans ?_⟩
  have f1 : (∑ i, contrib ((pk i).scale (w i), m i)) = ∑ i, wordsVal (w i) • contrib (pk i, m i) :=
    Finset.sum_congr rfl fun i _ => hcon i
  have f2 : ∑ i, wordsVal (w i) • (S i - contrib (pk i, m i)) =
      (∑ i, wordsVal (w i) • S i) - ∑ i, wordsVal (w i) • contrib (pk i, m i) := by
    rw [← Finset.sum_sub_distrib]
    exact Finset.sum_congr rfl fun i _ => nsmul_sub _ _ _
  rw [f1, f2, sub_eq_zero]
  constructor
  · rintro ⟨-, h⟩
    exact hr.unique h
  · intro h
    refine ⟨?_, by rw [← h]; exact hr⟩
    intro x hx
    obtain ⟨i, rfl⟩ := (List.mem_ofFn' _ _).1 hx
    obtain ⟨k, -, h2⟩ := hsc i
    exact member1.2 ⟨(wordsVal (w i) * k) % q, Nat.mod_lt _ q_prime.pos, by rw [smul_mod (q_smul_gen1 _)]; exact h2⟩

/-- If all signatures are accepted, so is the batch. -/
theorem batch_complete {pk : Fin n → G1 K} {m : Fin n → List UInt8} {s : Fin n → G2 K} (w : Fin n → List UInt64)
    (hw : ∀ i, (w i).length = 4) (hm : ∀ i, (m i).length < 2 ^ 31) (h : ∀ i, verify (pk i) (m i) (s i) = some true) :
    aggregateVerify (List.ofFn fun i => (pk i).scale (w i)) (List.ofFn m)
      (Jac.weightedSum (List.ofFn s) (List.ofFn w)) false = some true := by
  have h' := fun i => (some_true_iff (verify_choice (pk i) (s i) (hm i))).1 (h i)
  rw [some_true_iff (batch_iff w hw (fun i => (h' i).1) hm fun i => (h' i).2)]
  exact Finset.sum_eq_zero fun i _ => by rw [sub_self, nsmul_zero]

/-- With one wrong signature the other weights determine its weight modulo `q`. -/
theorem batch_weight {pk : Fin n → G1 K} {m : Fin n → List UInt8} {s : Fin n → G2 K} (w w' : Fin n → List UInt64)
    (hw : ∀ i, (w i).length = 4) (hw' : ∀ i, (w' i).length = 4)
    (hpk : ∀ i, (pk i).isOnCurve FpC.B = true ∧ (pk i).inCorrectSubgroup = true) (hm : ∀ i, (m i).length < 2 ^ 31)
    (hs : ∀ i, (s i).isOnCurve Fp2.B = true ∧ (s i).inCorrectSubgroup = true) (j : Fin n)
    (hj : verify (pk j) (m j) (s j) ≠ some true) (he : ∀ i, i ≠ j → w i = w' i)
    (h : aggregateVerify (List.ofFn fun i => (pk i).scale (w i)) (List.ofFn m)
      (Jac.weightedSum (List.ofFn s) (List.ofFn w)) false = some true)
    (h' : aggregateVerify (List.ofFn fun i => (pk i).scale (w' i)) (List.ofFn m)
      (Jac.weightedSum (List.ofFn s) (List.ofFn w')) false = some true) : wordsVal (w j) % q = wordsVal (w' j) % q := by
  choose S hS oS using fun i => member2.1 (hs i)
  rw [some_true_iff (batch_iff w hw hpk hm hS), ← Finset.add_sum_erase _ _ (Finset.mem_univ j)] at h
  rw [some_true_iff (batch_iff w' hw' hpk hm hS), ← Finset.add_sum_erase _ _ (Finset.mem_univ j)] at h'
  have e : ∑ i ∈ Finset.univ.erase j, wordsVal (w i) • (S i - contrib (pk i, m i)) =
      ∑ i ∈ Finset.univ.erase j, wordsVal (w' i) • (S i - contrib (pk i, m i)) :=
    Finset.sum_congr rfl fun i hi => by rw [he i (Finset.ne_of_mem_erase hi)]
  rw [e] at h
  have hD : S j - contrib (pk j, m j) ≠ 0 := fun h0 => by
    rw [sub_eq_zero] at h0
    exact hj ((some_true_iff (verify_choice (pk j) (s j) (hm j))).2 ⟨hpk j, by rw [← h0]; exact hS j⟩)
  have oD : q • (S j - contrib (pk j, m j)) = 0 := by rw [nsmul_sub, oS j, contrib_order _ (hm j), sub_zero]
  exact (smul_inj_mod oD hD).1 (add_right_cancel (h.trans h'.symm))

/-- A signature shifted by a point of small order is accepted with every weight that is a multiple of the order. -/
theorem batch_small {pk : G1 K} {m : List UInt8} {s t : G2 K} {T : E2 K} (hm : m.length < 2 ^ 31) (h : verify pk m s = some true)
    (ht : t.Rep T) {k : ℕ} (hT : k • T = 0) (w : List UInt64) (hw : w.length = 4) (hk : k ∣ wordsVal w) :
    aggregateVerify [pk.scale w] [m] (Jac.weightedSum [s.add t] [w]) false = some true := by
  obtain ⟨h1, h2⟩ := (some_true_iff (verify_choice pk s hm)).1 h
  have hb := batch_iff (n := 1) (pk := fun _ => pk) (m := fun _ => m) (fun _ => w) (fun _ => hw) (fun _ => h1) (fun _ => hm)
    fun _ => Jac.add_rep (goodCurve2 K) h2 ht
  refine (some_true_iff hb).2 ?_
  obtain ⟨c, hc⟩ := hk
  rw [Fin.sum_univ_one, add_sub_cancel_left, hc, mul_nsmul, hT, nsmul_zero]

/-- At most one in `N` choices of the weights accepts a batch with a wrong signature. -/
theorem batch_count {pk : Fin n → G1 K} {m : Fin n → List UInt8} {s : Fin n → G2 K}
    (hpk : ∀ i, (pk i).isOnCurve FpC.B = true ∧ (pk i).inCorrectSubgroup = true) (hm : ∀ i, (m i).length < 2 ^ 31)
    (hs : ∀ i, (s i).isOnCurve Fp2.B = true ∧ (s i).inCorrectSubgroup = true) (j : Fin n)
    (hj : verify (pk j) (m j) (s j) ≠ some true) {N : ℕ} (W : Fin N → List UInt64) (hW : ∀ k, (W k).length = 4)
    (hd : ∀ k l, wordsVal (W k) % q = wordsVal (W l) % q → k = l) :
    {c : Fin n → Fin N | aggregateVerify (List.ofFn fun i => (pk i).scale (W (c i))) (List.ofFn m)
      (Jac.weightedSum (List.ofFn s) (List.ofFn fun i => W (c i))) false = some true}.ncard ≤ N ^ (n - 1) := by
  classical
  let r : (Fin n → Fin N) → ({i : Fin n // i ≠ j} → Fin N) := fun c i => c i
  have hcard : Nat.card ({i : Fin n // i ≠ j} → Fin N) = N ^ (n - 1) := by
    rw [Nat.card_fun, Nat.card_fin, Nat.card_eq_fintype_card, Fintype.card_subtype_compl, Fintype.card_fin,
      Fintype.card_subtype_eq]
  rw [← hcard, ← Set.ncard_univ]
  refine Set.ncard_le_ncard_of_injOn r (fun _ _ => Set.mem_univ _) ?_ (Set.toFinite _)
  intro c hc c' hc' h
  have hr : ∀ i, i ≠ j → c i = c' i := fun i hi => congrFun h ⟨i, hi⟩
  have := batch_weight (fun i => W (c i)) (fun i => W (c' i)) (fun i => hW _) (fun i => hW _) hpk hm hs j hj
    (fun i hi => by rw [hr i hi]) hc hc'
  funext i
  by_cases hi : i = j
  · subst hi; exact hd _ _ this
  · exact hr i hi

end Bls.Sig
