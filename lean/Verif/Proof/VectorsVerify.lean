import Verif.Proof.Vectors

/-!
# The memory of the verification functions
-/

namespace Bls.Vectors

/-- The outcome of a call without requests for memory; `none` is undefined behaviour. -/
def answer {ε α : Type} : Option α → Except (Exc ε) α
  | some a => .ok a
  | none => .error .undefined

variable {c0 : ℕ} {base own : List (ℕ × ℕ)} {h h' : Heap} {e : Env}
variable {K : Type} [Field K] [FpOps K] [LawfulFp K] [DecidableEq K] {most : ℕ} {imp : Prop}

attribute [local irreducible] Pairing.pairVal

theorem addPair_length (v : List (G1 K × G2 K)) (a : G1 K) (b : G2 K) : (Pairing.addPair v a b).length ≤ v.length + 1 := by
  unfold Pairing.addPair
  split_ifs
  · rw [List.length_append, List.length_singleton]
  · exact Nat.le_succ _

theorem finish_res (v : Vec K) (o : Own c0 base v.block h) (h1 : 19584 * v.data.length ≤ most) (hm : 2 ^ 63 - 1 < most → imp) :
    Res e c0 base [] h most imp (answer (Sig.isOneProduct v.data)) (finish e v h) := by
  have hr := calculate_res (ε := Empty) (e := e) v.data none () o (fun h => absurd h (by decide)) h1 hm
  have hv : lift (Pairing.calculateRun v.data (none : Jac.Yield Unit Empty) ()) =
      .ok ((v.data.map fun pq => Pairing.pairVal pq.1 pq.2).prod, ()) := by
    rw [Pairing.calculateRun_eq]
    rfl
  have ho : Sig.isOneProduct v.data = some (Fp12.one.equal (v.data.map fun pq => Pairing.pairVal pq.1 pq.2).prod) := by
    unfold Sig.isOneProduct
    rw [Pairing.calculate_eq]
    rfl
  rw [hv] at hr
  rw [ho]
  generalize (v.data.map fun pq => Pairing.pairVal pq.1 pq.2).prod = f at *
  unfold finish
  obtain ⟨r1, r2, r3⟩ := hr
  generalize calculate e v.data none () h = r at *
  obtain ⟨x, h'⟩ := r
  simp only at r1 r2 r3
  rcases r3 with rfl | ⟨rfl, r3⟩ | ⟨rfl, r3⟩
  · exact ⟨r1.deleteAll, by simp only [delete_calls]; exact r2, Or.inl rfl⟩
  · exact ⟨r1.deleteAll, by simp only [delete_calls]; exact r2, Or.inr (Or.inl ⟨rfl, by simp only [delete_calls]; exact r3⟩)⟩
  · exact ⟨r1.deleteAll, by simp only [delete_calls]; exact r2, Or.inr (Or.inr ⟨rfl, r3⟩)⟩

/-- A call that begins after others. -/
theorem Res.after {ε α : Type} {o : Except (Exc ε) α} {r : Except (Exc ε) α × Heap} (x : Res e c0 base own h' most imp o r)
    (hc : h.calls ≤ h'.calls) : Res e c0 base own h most imp o r :=
  ⟨x.own, hc.trans x.calls, x.outcome.imp_right fun y => y.imp_left fun z => ⟨z.1, z.2.mono hc le_rfl le_rfl⟩⟩

theorem Res.value {ε α : Type} {o : Except (Exc ε) α} {a : Except (Exc ε) α} (ho : Own c0 base own h') (hc : h.calls ≤ h'.calls) (ha : a = o) :
    Res e c0 base own h most imp o (a, h') := ⟨ho, hc, Or.inl ha⟩

theorem Res.bad {ε α : Type} {o : Except (Exc ε) α} (ho : Own c0 base own h') (hr : Refused e.grants h.calls h'.calls most)
    (hc : h.calls ≤ h'.calls) : Res e c0 base own h most imp o (.error .badAlloc, h') := ⟨ho, hc, Or.inr (Or.inl ⟨rfl, hr⟩)⟩

theorem Res.long {ε α : Type} {o : Except (Exc ε) α} (ho : Own c0 base own h') (hi : imp)
    (hc : h.calls ≤ h'.calls) : Res e c0 base own h most imp o (.error .lengthError, h') := ⟨ho, hc, Or.inr (Or.inr ⟨rfl, hi⟩)⟩

theorem Own.calls_delete {bs : List (ℕ × ℕ)} {n : ℕ} (hc : n ≤ h.calls) : n ≤ (Vectors.delete bs h).calls := by rwa [delete_calls]

theorem Refused.delete {g : ℕ → ℕ → Bool} {bs : List (ℕ × ℕ)} {a m : ℕ} (r : Refused g a h.calls m) :
    Refused g a (Vectors.delete bs h).calls m := by rwa [delete_calls]

theorem verify_res (hg : ∀ c, e.grow c ≤ max 1 (2 * c)) (pk : G1 K) (m : List UInt8) (sig : G2 K) (o : Own c0 base [] h) :
    Res e c0 base [] h 39168 False (answer (Sig.verify pk m sig)) (verify e pk m sig h) := by
  have hm : 2 ^ 63 - 1 < 39168 → False := by norm_num
  unfold verify Sig.verify
  simp only
  have l1 := addPair_length ([] : List (G1 K × G2 K)) (G1.one : G1 K).negate sig
  rcases addPair_own (ε := Empty) hg (⟨[], 0, []⟩ : Vec K) (G1.one : G1 K).negate sig o (most := 39168) (imp := False)
      (by norm_num) hm with ⟨v, ha, q1, d1, o1, c1⟩ | ⟨ha, q1, o1, c1, r1⟩ | ⟨q1, i⟩
  · rw [q1]
    simp only
    rw [← d1] at l1 ⊢
    cases Sig.fromMessage (K := K) m Sig.ciphersuiteId with
    | none => exact .value o1.deleteAll (Own.calls_delete c1) rfl
    | some hp =>
      simp only [Option.bind_some]
      have l2 := addPair_length v.data pk hp
      have l3 : v.data.length ≤ 1 := l1
      rcases addPair_own (ε := Empty) hg v pk hp o1 (most := 39168) (imp := False) (by omega) hm with
        ⟨v', hb, q2, d2, o2, c2⟩ | ⟨hb, q2, o2, c2, r2⟩ | ⟨q2, i⟩
      · rw [q2]
        simp only
        rw [← d2] at l2 ⊢
        by_cases hp1 : (!pk.isOnCurve FpC.B || !pk.inCorrectSubgroup) = true
        · rw [if_pos hp1, if_pos hp1]
          exact .value o2.deleteAll (Own.calls_delete (c1.trans c2)) rfl
        rw [if_neg hp1, if_neg hp1]
        by_cases hs : (!sig.isOnCurve Fp2.B || !sig.inCorrectSubgroup) = true
        · rw [if_pos hs, if_pos hs]
          exact .value o2.deleteAll (Own.calls_delete (c1.trans c2)) rfl
        rw [if_neg hs, if_neg hs]
        exact (finish_res v' o2 (by omega) hm).after (c1.trans c2)
      · rw [q2]
        exact .bad o2.deleteAll (Refused.delete (r2.mono c1 le_rfl le_rfl)) (Own.calls_delete (c1.trans c2))
      · exact i.elim
  · rw [q1]
    exact .bad o1 r1 c1
  · exact i.elim

theorem insertAll_own : ∀ (ms : List (List UInt8)) (s : MsgSet) {h : Heap} {c1 : ℕ} (_ : Own c0 base (s.blocks ++ own) h)
    (_ : ∀ x ∈ s.blocks, c1 ≤ x.1) (_ : c1 ≤ h.calls) (_ : ∀ m ∈ ms, m.length ≤ most) (_ : e.node ≤ most) (_ : 2 ^ 63 - 1 < most → imp),
    ∃ r s' h', insertAll e ms s h = (r, s', h') ∧ Own c0 base (s'.blocks ++ own) h' ∧ (∀ x ∈ s'.blocks, c1 ≤ x.1) ∧ h.calls ≤ h'.calls ∧
      ((r = .ok () ∧ s'.elems = ms.foldl (fun s m => if s.contains m then s else m :: s) s.elems) ∨
        (r = .error .badAlloc ∧ Refused e.grants h.calls h'.calls most) ∨ (r = .error .lengthError ∧ imp))
  | [], s, h, c1, o, hs, hc, hl, hn, hm => ⟨_, s, h, rfl, o, hs, le_rfl, Or.inl ⟨rfl, rfl⟩⟩
  | m :: ms, s, h, c1, o, hs, hc, hl, hn, hm => by
    have hlm : 1 * m.length ≤ most := by rw [one_mul]; exact hl m (List.mem_cons_self ..)
    have hl' : ∀ x ∈ ms, x.length ≤ most := fun x hx => hl x (List.mem_cons_of_mem _ hx)
    rw [insertAll]
    rcases allocate_own (ε := Empty) (e := e) 1 m.length o with ⟨w, ha, q1, o1, k1, b1⟩ | ⟨ha, q1, o1, k1, r1⟩ | ⟨q1, l1⟩
    · rw [q1]
      simp only
      have ot := fun {hx : Heap} (ox : Own c0 base (w ++ (s.blocks ++ own)) hx) => ox.deleteTop b1 fun x hx => (o.own x hx).2
      by_cases hd : s.elems.contains m = true
      · rw [if_pos hd, List.foldl_cons, if_pos hd]
        obtain ⟨r, s', h', e1, e2, e3, e4, e5⟩ := insertAll_own ms s (ot o1) hs (Own.calls_delete (hc.trans k1)) hl' hn hm
        rw [delete_calls] at e4 e5
        refine ⟨r, s', h', e1, e2, e3, k1.trans e4, e5.imp_right fun y => y.imp_left fun z => ⟨z.1, z.2.mono k1 le_rfl le_rfl⟩⟩
      · rw [if_neg hd, List.foldl_cons, if_neg hd]
        rcases new_own (ε := Empty) (e := e) e.node o1 with ⟨b, hb, q2, o2, k2, b2⟩ | ⟨hb, q2, o2, k2, r2⟩
        · rw [q2]
          simp only
          have o3 : Own c0 base ((⟨b :: w ++ s.blocks, m :: s.elems⟩ : MsgSet).blocks ++ own) hb := by
            simp only [List.cons_append, List.append_assoc]
            exact o2
          obtain ⟨r, s', h', e1, e2, e3, e4, e5⟩ := insertAll_own ms ⟨b :: w ++ s.blocks, m :: s.elems⟩ o3 (c1 := c1)
            (fun x hx => by
              simp only [List.cons_append, List.mem_cons, List.mem_append] at hx
              rcases hx with rfl | hx | hx
              · exact (hc.trans k1).trans b2
              · exact hc.trans (b1 x hx)
              · exact hs x hx) ((hc.trans k1).trans k2) hl' hn hm
          exact ⟨r, s', h', e1, e2, e3, (k1.trans k2).trans e4,
            e5.imp_right fun y => y.imp_left fun z => ⟨z.1, z.2.mono (k1.trans k2) le_rfl le_rfl⟩⟩
        · rw [q2]
          exact ⟨_, s, _, rfl, ot o2, hs, Own.calls_delete (k1.trans k2),
            Or.inr (Or.inl ⟨rfl, Refused.delete (r2.mono k1 le_rfl hn)⟩)⟩
    · rw [q1]
      exact ⟨_, s, _, rfl, o1, hs, k1, Or.inr (Or.inl ⟨rfl, r1.mono le_rfl le_rfl hlm⟩)⟩
    · rw [q1]
      exact ⟨_, s, _, rfl, o, hs, le_rfl, Or.inr (Or.inr ⟨rfl, hm (l1.trans_le hlm)⟩)⟩

theorem distinct_res (ms : List (List UInt8)) (n : ℕ) (o : Own c0 base own h) (h1 : ∀ m ∈ ms, m.length ≤ most) (h2 : e.node ≤ most)
    (hm : 2 ^ 63 - 1 < most → imp) :
    Res e c0 base own h most imp (.ok ((Sig.messageSet ms).length == n)) (distinct e ms n h) := by
  obtain ⟨r, s, h', e1, e2, e3, e4, e5⟩ := insertAll_own (e := e) (own := own) ms ⟨[], []⟩ (h := h) (c1 := h.calls) o
    (fun x hx => absurd hx List.not_mem_nil) le_rfl h1 h2 hm
  have o' := e2.deleteTop e3 fun x hx => (o.own x hx).2
  unfold distinct Sig.messageSet
  rw [e1]
  rcases e5 with ⟨rfl, e5⟩ | ⟨rfl, e5⟩ | ⟨rfl, e5⟩
  · rw [← e5]
    exact .value o' (Own.calls_delete e4) rfl
  · exact .bad o' (Refused.delete e5) (Own.calls_delete e4)
  · exact .long o' e5 (Own.calls_delete e4)

theorem addAll_own (hg : ∀ c, e.grow c ≤ max 1 (2 * c)) : ∀ (pks : List (G1 K)) (ms : List (List UInt8)) (v : Vec K) {h : Heap}
    (_ : Own c0 base v.block h) (_ : 864 * (v.data.length + pks.length) ≤ most) (_ : 2 ^ 63 - 1 < most → imp),
    ∃ r v' h', addAll e pks ms v h = (r, v', h') ∧ Own c0 base v'.block h' ∧ h.calls ≤ h'.calls ∧
      v'.data.length ≤ v.data.length + pks.length ∧
      ((r = .ok true ∧ Sig.aggregateLoop pks ms v.data = some (some v'.data)) ∨
        (r = .ok false ∧ Sig.aggregateLoop pks ms v.data = some none) ∨
        (r = .error .undefined ∧ Sig.aggregateLoop pks ms v.data = none) ∨
        (r = .error .badAlloc ∧ Refused e.grants h.calls h'.calls most) ∨ (r = .error .lengthError ∧ imp))
  | [], ms, v, h, o, hl, hm => by
    rw [addAll.eq_2 _ _ _ _ _ (by intro _ _ _ _ h; exact absurd h (by simp)), Sig.aggregateLoop.eq_2 _ _ _ (by intro _ _ _ _ h; exact absurd h (by simp))]
    exact ⟨_, v, h, rfl, o, le_rfl, Nat.le_add_right _ _, Or.inl ⟨rfl, rfl⟩⟩
  | pk :: pks, [], v, h, o, hl, hm => by
    rw [addAll.eq_2 _ _ _ _ _ (by intro _ _ _ _ _ h; exact absurd h (by simp)), Sig.aggregateLoop.eq_2 _ _ _ (by intro _ _ _ _ _ h; exact absurd h (by simp))]
    exact ⟨_, v, h, rfl, o, le_rfl, Nat.le_add_right _ _, Or.inl ⟨rfl, rfl⟩⟩
  | pk :: pks, m :: ms, v, h, o, hl, hm => by
    rw [List.length_cons] at hl ⊢
    rw [addAll, Sig.aggregateLoop]
    by_cases hp : (!pk.isOnCurve FpC.B || !pk.inCorrectSubgroup) = true
    · rw [if_pos hp, if_pos hp]
      exact ⟨_, v, h, rfl, o, le_rfl, Nat.le_add_right _ _, Or.inr (Or.inl ⟨rfl, rfl⟩)⟩
    rw [if_neg hp, if_neg hp]
    cases Sig.fromMessage (K := K) m Sig.ciphersuiteId with
    | none => exact ⟨_, v, h, rfl, o, le_rfl, Nat.le_add_right _ _, Or.inr (Or.inr (Or.inl ⟨rfl, rfl⟩))⟩
    | some hp =>
      simp only [Option.bind_some]
      have l2 := addPair_length v.data pk hp
      rcases addPair_own (ε := Empty) hg v pk hp o (most := most) (imp := imp) (by omega) hm with
        ⟨v', hb, q2, d2, o2, c2⟩ | ⟨hb, q2, o2, c2, r2⟩ | ⟨q2, i⟩
      · rw [q2]
        simp only
        rw [← d2] at l2 ⊢
        obtain ⟨r, v'', h', e1, e2, e3, e4, e5⟩ := addAll_own hg pks ms v' o2 (by omega) hm
        refine ⟨r, v'', h', e1, e2, c2.trans e3, by omega, e5.imp_right fun y => y.imp_right fun y => y.imp_right fun y =>
          y.imp_left fun z => ⟨z.1, z.2.mono c2 le_rfl le_rfl⟩⟩
      · rw [q2]
        exact ⟨_, v, _, rfl, o2, c2, Nat.le_add_right _ _, Or.inr (Or.inr (Or.inr (Or.inl ⟨rfl, r2⟩)))⟩
      · rw [q2]
        exact ⟨_, v, _, rfl, o, le_rfl, Nat.le_add_right _ _, Or.inr (Or.inr (Or.inr (Or.inr ⟨rfl, i⟩)))⟩

theorem aggregateTail_res (hg : ∀ c, e.grow c ≤ max 1 (2 * c)) (pks : List (G1 K)) (ms : List (List UInt8)) (v : Vec K)
    (o : Own c0 base v.block h) (h1 : 19584 * (v.data.length + pks.length) ≤ most) (hm : 2 ^ 63 - 1 < most → imp) :
    Res e c0 base [] h most imp (answer ((Sig.aggregateLoop pks ms v.data).bind fun r =>
      match r with
      | none => some false
      | some v => Sig.isOneProduct v)) (aggregateTail e pks ms v h) := by
  obtain ⟨r, v', h', e1, e2, e3, e4, e5⟩ := addAll_own hg pks ms v o (by omega : 864 * (v.data.length + pks.length) ≤ most) hm
  unfold aggregateTail
  rw [e1]
  rcases e5 with ⟨rfl, e5⟩ | ⟨rfl, e5⟩ | ⟨rfl, e5⟩ | ⟨rfl, e5⟩ | ⟨rfl, e5⟩
  · rw [e5]
    exact (finish_res v' e2 (by omega) hm).after e3
  · rw [e5]
    exact .value e2.deleteAll (Own.calls_delete e3) rfl
  · rw [e5]
    exact .value e2.deleteAll (Own.calls_delete e3) rfl
  · exact .bad e2.deleteAll (Refused.delete e5) (Own.calls_delete e3)
  · exact .long e2.deleteAll e5 (Own.calls_delete e3)

theorem aggregateVerify_res (hg : ∀ c, e.grow c ≤ max 1 (2 * c)) (pks : List (G1 K)) (ms : List (List UInt8)) (sig : G2 K) (check : Bool)
    (o : Own c0 base [] h) (h1 : 19584 * (pks.length + 1) ≤ most) (h2 : check = true → e.node ≤ most ∧ ∀ m ∈ ms, m.length ≤ most)
    (hm : 2 ^ 63 - 1 < most → imp) :
    Res e c0 base [] h most imp (answer (Sig.aggregateVerify pks ms sig check)) (aggregateVerify e pks ms sig check h) := by
  unfold aggregateVerify Sig.aggregateVerify
  simp only
  have l1 := addPair_length ([] : List (G1 K × G2 K)) (G1.one : G1 K).negate sig
  rcases addPair_own (ε := Empty) hg (⟨[], 0, []⟩ : Vec K) (G1.one : G1 K).negate sig o (most := most) (imp := imp)
      (by simp only [List.length_nil]; omega) hm with ⟨v, ha, q1, d1, o1, c1⟩ | ⟨ha, q1, o1, c1, r1⟩ | ⟨q1, i⟩
  · rw [q1]
    simp only
    rw [← d1] at l1 ⊢
    have l3 : v.data.length ≤ 1 := l1
    by_cases hs : (!sig.isOnCurve Fp2.B || !sig.inCorrectSubgroup) = true
    · rw [if_pos hs, if_pos hs]
      exact .value o1.deleteAll (Own.calls_delete c1) rfl
    rw [if_neg hs, if_neg hs]
    by_cases hl : pks.length ≠ ms.length
    · rw [if_pos hl, if_pos hl]
      exact .value o1.deleteAll (Own.calls_delete c1) rfl
    rw [if_neg hl, if_neg hl]
    have ht := fun {hx : Heap} (ox : Own c0 base v.block hx) (cx : ha.calls ≤ hx.calls) =>
      (aggregateTail_res (imp := imp) hg pks ms v ox (by omega : 19584 * (v.data.length + pks.length) ≤ most) hm).after (c1.trans cx)
    cases check with
    | false =>
      rw [Bool.false_and, if_neg Bool.false_ne_true, if_neg Bool.false_ne_true]
      exact ht o1 le_rfl
    | true =>
      rw [if_pos rfl, Bool.true_and]
      obtain ⟨d1, d2, d3⟩ := distinct_res (e := e) ms pks.length o1 (h2 rfl).2 (h2 rfl).1 hm
      generalize distinct e ms pks.length ha = r at *
      obtain ⟨x, hx⟩ := r
      simp only at d1 d2 d3
      rcases d3 with rfl | ⟨rfl, d3⟩ | ⟨rfl, d3⟩
      · by_cases hq : (Sig.messageSet ms).length = pks.length
        · rw [show ((Sig.messageSet ms).length == pks.length) = true by rw [hq]; exact beq_self_eq_true _, if_neg (by rw [hq]; simp)]
          exact ht d1 d2
        · rw [show ((Sig.messageSet ms).length == pks.length) = false from beq_eq_false_iff_ne.2 hq, if_pos (by rw [bne_iff_ne]; exact hq)]
          exact .value d1.deleteAll (Own.calls_delete (c1.trans d2)) rfl
      · exact .bad d1.deleteAll (Refused.delete (d3.mono c1 le_rfl le_rfl)) (Own.calls_delete (c1.trans d2))
      · exact .long d1.deleteAll d3 (Own.calls_delete (c1.trans d2))
  · rw [q1]
    exact .bad o1 r1 c1
  · rw [q1]
    exact .long o i le_rfl

theorem hashKey_res (pk : G1 K) (o : Own c0 base [] h) (hl : (Sig.keyBytes pk).length ≤ most) (hm : 2 ^ 63 - 1 < most → imp) :
    Res e c0 base [] h most imp (answer (Sig.fromMessage (Sig.keyBytes pk) Sig.popCiphersuiteId)) (hashKey e pk h) := by
  unfold hashKey
  rcases allocate_own (ε := Empty) (e := e) 1 (Sig.keyBytes pk).length o with ⟨w, ha, q1, o1, k1, b1⟩ | ⟨ha, q1, o1, k1, r1⟩ | ⟨q1, l1⟩
  · rw [q1]
    simp only
    have o2 := o1.deleteTop b1 fun x hx => (o.own x hx).2
    cases Sig.fromMessage (K := K) (Sig.keyBytes pk) Sig.popCiphersuiteId with
    | none => exact .value o2 (Own.calls_delete k1) rfl
    | some p => exact .value o2 (Own.calls_delete k1) rfl
  · rw [q1]
    exact .bad o1 (r1.mono le_rfl le_rfl (by rwa [one_mul])) k1
  · rw [q1]
    exact .long o (hm (l1.trans_le (by rwa [one_mul]))) le_rfl

theorem popProve_res (sk : List UInt64) (o : Own c0 base [] h) (hl : (Sig.keyBytes (Keys.publicKey sk : G1 K)).length ≤ most)
    (hm : 2 ^ 63 - 1 < most → imp) :
    Res e c0 base [] h most imp (answer (Sig.popProve sk : Option (G2 K))) (popProve e sk h) := by
  obtain ⟨d1, d2, d3⟩ := hashKey_res (e := e) (Keys.publicKey sk : G1 K) o hl hm
  unfold popProve Sig.popProve
  simp only
  generalize hashKey e (Keys.publicKey sk : G1 K) h = r at *
  generalize Sig.fromMessage (K := K) (Sig.keyBytes (Keys.publicKey sk : G1 K)) Sig.popCiphersuiteId = f at *
  obtain ⟨x, hx⟩ := r
  simp only at d1 d2 d3
  rcases d3 with rfl | ⟨rfl, d3⟩ | ⟨rfl, d3⟩
  · cases f with
    | none => exact .value d1 d2 rfl
    | some p => exact .value d1 d2 rfl
  · exact .bad d1 d3 d2
  · exact .long d1 d3 d2

theorem popVerify_res (hg : ∀ c, e.grow c ≤ max 1 (2 * c)) (pk : G1 K) (sig : G2 K) (o : Own c0 base [] h)
    (hl : (Sig.keyBytes pk).length ≤ 39168) :
    Res e c0 base [] h 39168 False (answer (Sig.popVerify pk sig)) (popVerify e pk sig h) := by
  have hm : 2 ^ 63 - 1 < 39168 → False := by norm_num
  obtain ⟨d1, d2, d3⟩ := hashKey_res (e := e) pk o hl hm
  unfold popVerify Sig.popVerify
  simp only
  generalize hashKey e pk h = r at *
  generalize Sig.fromMessage (K := K) (Sig.keyBytes pk) Sig.popCiphersuiteId = f at *
  obtain ⟨x, hx⟩ := r
  simp only at d1 d2 d3
  rcases d3 with rfl | ⟨rfl, d3⟩ | ⟨rfl, d3⟩
  · cases f with
    | none => exact .value d1 d2 rfl
    | some hp =>
      simp only [answer, Option.bind_some]
      by_cases hp1 : (!pk.isOnCurve FpC.B || !pk.inCorrectSubgroup) = true
      · rw [if_pos hp1, if_pos hp1]
        exact .value d1 d2 rfl
      rw [if_neg hp1, if_neg hp1]
      by_cases hs : (!sig.isOnCurve Fp2.B || !sig.inCorrectSubgroup) = true
      · rw [if_pos hs, if_pos hs]
        exact .value d1 d2 rfl
      rw [if_neg hs, if_neg hs]
      have l1 := addPair_length ([] : List (G1 K × G2 K)) (G1.one : G1 K).negate sig
      rcases addPair_own (ε := Empty) hg (⟨[], 0, []⟩ : Vec K) (G1.one : G1 K).negate sig d1 (most := 39168) (imp := False)
          (by norm_num) hm with ⟨v, ha, q1, d1, o1, c1⟩ | ⟨ha, q1, o1, c1, r1⟩ | ⟨q1, i⟩
      · rw [q1]
        simp only
        rw [← d1] at l1 ⊢
        have l2 := addPair_length v.data pk hp
        have l3 : v.data.length ≤ 1 := l1
        rcases addPair_own (ε := Empty) hg v pk hp o1 (most := 39168) (imp := False) (by omega) hm with
          ⟨v', hb, q2, d2', o2, c2⟩ | ⟨hb, q2, o2, c2, r2⟩ | ⟨q2, i⟩
        · rw [q2]
          simp only
          rw [← d2'] at l2 ⊢
          exact (finish_res v' o2 (by omega) hm).after (d2.trans (c1.trans c2))
        · rw [q2]
          exact .bad o2.deleteAll (Refused.delete (r2.mono (d2.trans c1) le_rfl le_rfl)) (Own.calls_delete (d2.trans (c1.trans c2)))
        · exact i.elim
      · rw [q1]
        exact .bad o1 (r1.mono d2 le_rfl le_rfl) (d2.trans c1)
      · exact i.elim
  · exact .bad d1 d3 d2
  · exact .long d1 d3 d2

theorem popFast_res (hg : ∀ c, e.grow c ≤ max 1 (2 * c)) (pks : List (G1 K)) (m : List UInt8) (sig : G2 K) (o : Own c0 base [] h) :
    Res e c0 base [] h 39168 False (answer (Sig.popFastAggregateVerify pks m sig)) (popFastAggregateVerify e pks m sig h) := by
  unfold popFastAggregateVerify Sig.popFastAggregateVerify
  by_cases hl : pks.length = 0
  · rw [if_pos hl, if_pos hl]
    exact .value o le_rfl rfl
  · rw [if_neg hl, if_neg hl]
    exact verify_res hg _ m sig o

end Bls.Vectors
