import Verif.Proof.Batch

/-! Signatures of the holders of selected keys of a list. -/

namespace Bls.Sig
open Bls Rfc Pairing

attribute [local irreducible] p q hEff2 eps pairVal

variable {K : Type} [Field K] [FpOps K] [LawfulFp K] [DecidableEq K] {T : Type}

/-- The sum of the scalars of the selected keys. -/
noncomputable def total (xs : List T) (f : T → G1 K) (sel : T → ℕ → Bool) : ℕ :=
  ∑ i : Fin xs.length, if sel xs[i] i then scal (f xs[i]) else 0

theorem total_rep {xs : List T} {f : T → G1 K} (hf : ∀ x ∈ xs, (f x).isOnCurve FpC.B = true ∧ (f x).inCorrectSubgroup = true)
    (sel : T → ℕ → Bool) : (Keys.aggregateIf xs f sel).Rep (total xs f sel • gen1 K) := by
  let P : ℕ → E1 K := fun i => if h : i < xs.length then scal (f xs[i]) • gen1 K else 0
  have hP : ∀ i (h : i < xs.length), (f xs[i]).Rep (P i) := by
    intro i h
    rw [show P i = scal (f xs[i]) • gen1 K from dif_pos h]
    exact scal_spec (hf _ (List.getElem_mem h))
  have h := Keys.aggregateIf_rep (goodCurve1 K) f sel xs P hP
  have e : (∑ i : Fin xs.length, if sel xs[i] i then P i else 0) = total xs f sel • gen1 K := by
    rw [total, ← Finset.sum_nsmul_assoc]
    refine Finset.sum_congr rfl fun i _ => ?_
    rw [show P i = scal (f xs[i]) • gen1 K from dif_pos i.2]
    split_ifs
    · rfl
    · rw [zero_nsmul]
  rwa [e] at h

/-- Selecting one more key adds its scalar. -/
theorem total_flip {xs : List T} (f : T → G1 K) {sel sel' : T → ℕ → Bool} (i : ℕ) (hi : i < xs.length)
    (hs : ∀ k (h : k < xs.length), k ≠ i → sel' xs[k] k = sel xs[k] k) (h0 : sel xs[i] i = false) (h1 : sel' xs[i] i = true) :
    total xs f sel' = total xs f sel + scal (f xs[i]) := by
  have e := Finset.add_sum_erase Finset.univ (fun k : Fin xs.length => if sel xs[k] k then scal (f xs[k]) else 0)
    (Finset.mem_univ ⟨i, hi⟩)
  have e' := Finset.add_sum_erase Finset.univ (fun k : Fin xs.length => if sel' xs[k] k then scal (f xs[k]) else 0)
    (Finset.mem_univ ⟨i, hi⟩)
  have hc : ∑ k ∈ Finset.univ.erase (⟨i, hi⟩ : Fin xs.length), (if sel' xs[k] k then scal (f xs[k]) else 0) =
      ∑ k ∈ Finset.univ.erase (⟨i, hi⟩ : Fin xs.length), (if sel xs[k] k then scal (f xs[k]) else 0) :=
    Finset.sum_congr rfl fun k hk => by
      rw [show sel' xs[k] k = sel xs[k] k from hs k k.2 fun h => Finset.ne_of_mem_erase hk (Fin.ext h)]
  rw [total, total, ← e, ← e', hc]
  simp only [Fin.getElem_fin, h0, h1, if_true]
  simp only [Bool.false_eq_true, if_false, zero_add]
  exact add_comm _ _

theorem total_member {xs : List T} {f : T → G1 K} (hf : ∀ x ∈ xs, (f x).isOnCurve FpC.B = true ∧ (f x).inCorrectSubgroup = true)
    (sel : T → ℕ → Bool) : (Keys.aggregateIf xs f sel).isOnCurve FpC.B = true ∧
      G1.inCorrectSubgroup (Keys.aggregateIf xs f sel) = true :=
  member1.2 ⟨total xs f sel % q, Nat.mod_lt _ q_prime.pos, by rw [smul_mod (q_smul_gen1 _)]; exact total_rep hf sel⟩

/-- The decision for two groups of keys with a message each. -/
theorem quorum_iff {xs : List T} {f : T → G1 K} (hf : ∀ x ∈ xs, (f x).isOnCurve FpC.B = true ∧ (f x).inCorrectSubgroup = true)
    (sel sel' : T → ℕ → Bool) {m m' : List UInt8} (hm : m.length < 2 ^ 31) (hm' : m'.length < 2 ^ 31) (s : G2 K) :
    ∃ b, aggregateVerify [Keys.aggregateIf xs f sel, Keys.aggregateIf xs f sel'] [m, m'] s false = some b ∧
      (b = true ↔ s.Rep (total xs f sel • hpt m + total xs f sel' • hpt m')) := by
  have e : ([(Keys.aggregateIf xs f sel, m), (Keys.aggregateIf xs f sel', m')].map contrib).sum =
      total xs f sel • hpt m + total xs f sel' • hpt m' := by
    rw [List.map_cons, List.map_singleton, List.sum_pair, contrib_eq hm (total_rep hf sel), contrib_eq hm' (total_rep hf sel')]
  obtain ⟨b, h1, h2⟩ := choice_of (s := s) (l := [(Keys.aggregateIf xs f sel, m), (Keys.aggregateIf xs f sel', m')]) rfl rfl e
    (fun x hx => by
      rcases List.mem_pair.1 hx with rfl | rfl
      · exact hm
      · exact hm')
  refine ⟨b, h1, h2.trans ⟨fun h => h.2, fun h => ⟨fun x hx => ?_, h⟩⟩⟩
  rcases List.mem_pair.1 hx with rfl | rfl
  · exact total_member hf sel
  · exact total_member hf sel'

/-- Honest votes. -/
theorem quorum_honest {xs : List T} {sk : T → List UInt64} {g g' : T → G2 K} {m m' : List UInt8}
    (hm : m.length < 2 ^ 31) (hm' : m'.length < 2 ^ 31) (hg : ∀ x ∈ xs, sign (sk x) m = some (g x))
    (hg' : ∀ x ∈ xs, sign (sk x) m' = some (g' x)) (sel sel' : T → ℕ → Bool) :
    aggregateVerify [Keys.aggregateIf xs (fun x => Keys.publicKey (sk x)) sel, Keys.aggregateIf xs (fun x => Keys.publicKey (sk x)) sel']
      [m, m'] (Keys.aggregate [Keys.aggregateIf xs g sel, Keys.aggregateIf xs g' sel']) false = some true := by
  have hf : ∀ x ∈ xs, (Keys.publicKey (sk x) : G1 K).isOnCurve FpC.B = true ∧ (Keys.publicKey (sk x) : G1 K).inCorrectSubgroup = true :=
    fun x _ => publicKey_member (sk x)
  have key : ∀ {m : List UInt8} {g : T → G2 K} (_ : m.length < 2 ^ 31) (_ : ∀ x ∈ xs, sign (sk x) m = some (g x))
      (sel : T → ℕ → Bool), (Keys.aggregateIf xs g sel).Rep (total xs (fun x => (Keys.publicKey (sk x) : G1 K)) sel • hpt m) := by
    intro m g hm hg sel
    obtain ⟨r, o⟩ := hpt_spec (K := K) hm
    let P : ℕ → E2 K := fun i => if h : i < xs.length then scal (Keys.publicKey (sk xs[i]) : G1 K) • hpt m else 0
    have hP : ∀ i (h : i < xs.length), (g xs[i]).Rep (P i) := by
      intro i h
      rw [show P i = scal (Keys.publicKey (sk xs[i]) : G1 K) • hpt m from dif_pos h]
      have hr := sign_rep' (hm_eq hm) (hg _ (List.getElem_mem h)) r
      have e := (Keys.smul_gen1_eq_iff (K := K) _ _).1 ((scal_spec (hf _ (List.getElem_mem h))).unique (Keys.publicKey_rep (sk xs[i])))
      rwa [← smul_mod o, ← e, smul_mod o] at hr
    have h := Keys.aggregateIf_rep (goodCurve2 K) g sel xs P hP
    have e : (∑ i : Fin xs.length, if sel xs[i] i then P i else 0) =
        total xs (fun x => (Keys.publicKey (sk x) : G1 K)) sel • hpt m := by
      rw [total, ← Finset.sum_nsmul_assoc]
      refine Finset.sum_congr rfl fun i _ => ?_
      rw [show P i = scal (Keys.publicKey (sk xs[i]) : G1 K) • hpt m from dif_pos i.2]
      split_ifs
      · rfl
      · rw [zero_nsmul]
    rwa [e] at h
  refine (some_true_iff (quorum_iff hf sel sel' hm hm' _)).2 ?_
  have h := Keys.aggregate_rep (goodCurve2 K) (.cons (key hm hg sel) (.cons (key hm' hg' sel') .nil))
  rwa [List.sum_pair] at h

/-- A certificate accepted for one selection is accepted for another one of the first group exactly if the sums of the keys
are the same. -/
theorem quorum_other {xs : List T} {f : T → G1 K} (hf : ∀ x ∈ xs, (f x).isOnCurve FpC.B = true ∧ (f x).inCorrectSubgroup = true)
    (sel sel' other : T → ℕ → Bool) {m m' : List UInt8} (hm : m.length < 2 ^ 31) (hm' : m'.length < 2 ^ 31) {s e : G2 K}
    (he : fromMessage m ciphersuiteId = some e) (h0 : e.isZero = false)
    (h : aggregateVerify [Keys.aggregateIf xs f sel, Keys.aggregateIf xs f sel'] [m, m'] s false = some true) :
    aggregateVerify [Keys.aggregateIf xs f other, Keys.aggregateIf xs f sel'] [m, m'] s false =
      some ((Keys.aggregateIf xs f other).equal (Keys.aggregateIf xs f sel)) := by
  have h := (some_true_iff (quorum_iff hf sel sel' hm hm' s)).1 h
  obtain ⟨b, hb, hb'⟩ := quorum_iff hf other sel' hm hm' s
  rw [hb]
  obtain ⟨r, o⟩ := hpt_spec (K := K) hm
  have hne : (hpt m : E2 K) ≠ 0 := fun h' => by
    rw [hm_eq hm] at he
    obtain rfl := Option.some.inj he
    rw [h'] at r
    rw [r.isZero_iff.2 rfl] at h0
    exact Bool.noConfusion h0
  congr 1
  rw [Bool.eq_iff_iff, hb', Jac.equal_iff (total_rep hf other) (total_rep hf sel), Keys.smul_gen1_eq_iff, ← smul_inj_mod o hne]
  constructor
  · intro h'
    exact add_right_cancel (h'.unique h)
  · intro h'
    rw [h']; exact h

theorem scal_not_dvd {a : G1 K} (h : a.isOnCurve FpC.B = true ∧ a.inCorrectSubgroup = true) (hk : a.isZero = false) :
    ¬ q ∣ scal a := fun ⟨c, hc⟩ => by
  have := scal_spec h
  rw [hc, mul_nsmul, q_smul_gen1, nsmul_zero] at this
  rw [this.isZero_iff.2 rfl] at hk
  exact Bool.noConfusion hk

theorem quorum_flip {xs : List T} {f : T → G1 K} (hf : ∀ x ∈ xs, (f x).isOnCurve FpC.B = true ∧ (f x).inCorrectSubgroup = true)
    (sel other : T → ℕ → Bool) (i : ℕ) (hi : i < xs.length) (hk : (f xs[i]).isZero = false)
    (ho : ∀ k (h : k < xs.length), k ≠ i → other xs[k] k = sel xs[k] k) (hd : other xs[i] i ≠ sel xs[i] i) :
    (Keys.aggregateIf xs f other).equal (Keys.aggregateIf xs f sel) = false := by
  have hn := scal_not_dvd (hf _ (List.getElem_mem hi)) hk
  rw [Bool.eq_false_iff, Ne, Jac.equal_iff (total_rep hf other) (total_rep hf sel), Keys.smul_gen1_eq_iff]
  intro h
  have h : total xs f other ≡ total xs f sel [MOD q] := h
  cases h0 : sel xs[i] i with
  | false =>
    have h1 : other xs[i] i = true := by rw [h0] at hd; exact Bool.not_eq_false _ ▸ hd
    rw [total_flip f i hi ho h0 h1] at h
    exact hn ((Nat.modEq_zero_iff_dvd).1 (Nat.ModEq.add_left_cancel' (total xs f sel) h))
  | true =>
    have h1 : other xs[i] i = false := by rw [h0] at hd; exact Bool.eq_false_iff.2 hd
    rw [total_flip f i hi (fun x k hk => (ho x k hk).symm) h1 h0] at h
    exact hn ((Nat.modEq_zero_iff_dvd).1 (Nat.ModEq.add_left_cancel' (total xs f other) h.symm))

/-- A vote moved from one group to the other. -/
theorem quorum_move {xs : List T} {f : T → G1 K} (hf : ∀ x ∈ xs, (f x).isOnCurve FpC.B = true ∧ (f x).inCorrectSubgroup = true)
    {sel sel' other other' : T → ℕ → Bool} {m m' : List UInt8} (hm : m.length < 2 ^ 31) (hm' : m'.length < 2 ^ 31) {s e e' : G2 K}
    (he : fromMessage m ciphersuiteId = some e) (he' : fromMessage m' ciphersuiteId = some e') (i : ℕ) (hi : i < xs.length)
    (hk : (f xs[i]).isZero = false)
    (h1 : ∀ k (h : k < xs.length), k ≠ i → other xs[k] k = sel xs[k] k)
    (h2 : ∀ k (h : k < xs.length), k ≠ i → sel' xs[k] k = other' xs[k] k)
    (a1 : sel xs[i] i = false) (a2 : other xs[i] i = true) (a3 : other' xs[i] i = false) (a4 : sel' xs[i] i = true)
    (h : aggregateVerify [Keys.aggregateIf xs f sel, Keys.aggregateIf xs f sel'] [m, m'] s false = some true) :
    aggregateVerify [Keys.aggregateIf xs f other, Keys.aggregateIf xs f other'] [m, m'] s false = some (e.equal e') := by
  have h := (some_true_iff (quorum_iff hf sel sel' hm hm' s)).1 h
  obtain ⟨b, hb, hb'⟩ := quorum_iff hf other other' hm hm' s
  rw [hb]
  obtain ⟨r, o⟩ := hpt_spec (K := K) hm
  obtain ⟨r', o'⟩ := hpt_spec (K := K) hm'
  rw [hm_eq hm] at he
  rw [hm_eq hm'] at he'
  obtain rfl := Option.some.inj he
  obtain rfl := Option.some.inj he'
  have hn := scal_not_dvd (hf _ (List.getElem_mem hi)) hk
  congr 1
  rw [Bool.eq_iff_iff, hb', Jac.equal_iff r r', total_flip f i hi h1 a1 a2]
  rw [total_flip f i hi h2 a3 a4, add_nsmul, ← add_assoc] at h
  rw [add_nsmul, add_assoc, add_comm (scal (f xs[i]) • hpt m), ← add_assoc]
  constructor
  · intro h'
    exact smul_cancel o o' hn (add_left_cancel (h'.unique h))
  · intro h'
    rw [h'] at h ⊢; exact h

end Bls.Sig
