import Verif.Model.Malloc
import Verif.Spec.Malloc
import Verif.Proof.Hash

/-! The runs with a heap. -/

namespace Bls.Malloc
open Hash (writeAt IsSha)

/-- Every block is older than the next call. -/
def Fresh (h : Heap) : Prop := ∀ x ∈ h.blocks, x.1 < h.calls

theorem lookup_mid (b : ℕ) (buf : List UInt8) (rest : List (ℕ × List UInt8)) :
    ∀ pre : List (ℕ × List UInt8), (∀ x ∈ pre, x.1 ≠ b) → (pre ++ (b, buf) :: rest).lookup b = some buf
  | [], _ => by simp
  | x :: pre, h => by
    have hx : (b == x.1) = false := by
      have := h x (by simp)
      simpa using fun e => this e.symm
    rw [List.cons_append, List.lookup_cons, hx]
    exact lookup_mid b buf rest pre fun y hy => h y (by simp [hy])

theorem store_mid (c b off : ℕ) (buf bs : List UInt8) (pre rest : List (ℕ × List UInt8)) (h1 : ∀ x ∈ pre, x.1 ≠ b)
    (h2 : ∀ x ∈ rest, x.1 ≠ b) :
    store ⟨c, pre ++ (b, buf) :: rest⟩ (some b) off bs =
      (writeAt buf off bs).map fun buf => ⟨c, pre ++ (b, buf) :: rest⟩ := by
  unfold store
  rw [Option.bind_some, lookup_mid b buf rest pre h1, Option.bind_some]
  congr 1
  funext buf'
  rw [List.map_append, List.map_cons, if_pos rfl]
  congr 2
  · exact (List.map_congr_left fun x hx => if_neg (h1 x hx)).trans (List.map_id' pre)
  · congr 1
    exact (List.map_congr_left fun x hx => if_neg (h2 x hx)).trans (List.map_id' rest)

theorem load_mid (c b : ℕ) (buf : List UInt8) (pre rest : List (ℕ × List UInt8)) (h1 : ∀ x ∈ pre, x.1 ≠ b) :
    load ⟨c, pre ++ (b, buf) :: rest⟩ (some b) = some buf := lookup_mid b buf rest pre h1

theorem free_mid (c b : ℕ) (buf : List UInt8) (pre rest : List (ℕ × List UInt8)) (h1 : ∀ x ∈ pre, x.1 ≠ b)
    (h2 : ∀ x ∈ rest, x.1 ≠ b) : free ⟨c, pre ++ (b, buf) :: rest⟩ (some b) = some ⟨c, pre ++ rest⟩ := by
  unfold free
  dsimp only
  rw [lookup_mid b buf rest pre h1, Option.map_some, List.filter_append, List.filter_cons_of_neg (by simp)]
  rw [List.filter_eq_self.2 fun x hx => by simpa using h1 x hx, List.filter_eq_self.2 fun x hx => by simpa using h2 x hx]

theorem array_length (n : ℕ) (f : ℕ → UInt8) : (array n f).length = n := by simp [array]

theorem writeAt_zero {b bs : List UInt8} (h : bs.length ≤ b.length) : writeAt b 0 bs = some (bs ++ b.drop bs.length) := by
  have := Hash.writeAt_append (a := []) (b := b) (off := 0) rfl h
  simpa using this

theorem writeAt_end {a b bs : List UInt8} {off : ℕ} (ha : a.length = off) (hb : bs.length = b.length) :
    writeAt (a ++ b) off bs = some (a ++ bs) := by
  rw [Hash.writeAt_append ha hb.le, hb, List.drop_length, List.append_nil]

/-- `hkdf256_hmac` on any heap. -/
theorem hmac_run (e : Env) (mac text key : List UInt8) (hm : mac.length = 32) (h : Heap) (hf : Fresh h) :
    hmac e mac text key h = some (if e.grants h.calls then ((0, Hash.hmac text key), ⟨h.calls + 1, h.blocks⟩)
      else ((-1, mac), ⟨h.calls + 1, h.blocks⟩)) := by
  unfold hmac malloc
  cases hg : e.grants h.calls with
  | false => rfl
  | true =>
    dsimp only [if_true]
    rw [if_neg (by simp)]
    generalize hk : (if key.length > 64 then Sha256.hash [key] else key) = k
    have hk64 : k.length ≤ 64 := by
      rw [← hk]
      split
      · rw [Sha256.hash_length]; omega
      · omega
    have hold : ∀ x ∈ h.blocks, x.1 ≠ h.calls := fun x hx => (hf x hx).ne
    have hl : (k ++ List.replicate (64 - k.length) (0 : UInt8)).length = 64 := by
      rw [List.length_append, List.length_replicate]; omega
    have sm := fun off buf bs => store_mid (h.calls + 1) h.calls off buf bs [] h.blocks (by simp) hold
    have lm := fun buf => load_mid (h.calls + 1) h.calls buf [] h.blocks (by simp)
    have fm := fun buf => free_mid (h.calls + 1) h.calls buf [] h.blocks (by simp) hold
    simp only [List.nil_append] at sm lm fm
    simp only [if_true]
    rw [sm, writeAt_zero (by rw [List.length_map, hl, array_length]; omega), Option.map_some, Option.bind_some,
      sm, writeAt_end (by rw [List.length_map, hl])
        (by rw [List.length_drop, List.length_map, hl, array_length]; omega), Option.map_some, Option.bind_some,
      lm, Option.bind_some, writeAt_zero (by rw [Sha256.hash_length, hm]), Option.bind_some, fm, Option.map_some,
      Sha256.hash_length, ← hm, List.drop_length, List.append_nil]
    unfold Hash.hmac
    simp only [hk]

theorem hmac_length (text key : List UInt8) : (Hash.hmac text key).length = 32 := Sha256.hash_length _

/-- The block written by one iteration. -/
theorem write_block (f : ℕ → List UInt8) (hf : ∀ i, (f i).length = 32) {L n : ℕ} (okm : List UInt8) (hok : L ≤ okm.length)
    (h : 32 * n < L) :
    writeAt ((Hash.blocks f n).take L ++ okm.drop (min (32 * n) L)) (min (32 * n) L)
      ((f n).take (if L - min (32 * n) L > 32 then 32 else L - min (32 * n) L)) =
      some ((Hash.blocks f (n + 1)).take L ++ okm.drop (min (32 * (n + 1)) L)) := by
  have hbl := Hash.blocks_length f hf
  have hm : min (32 * n) L = 32 * n := by omega
  have htw : (if L - min (32 * n) L > 32 then 32 else L - min (32 * n) L) = min 32 (L - 32 * n) := by
    rw [hm]; split <;> omega
  have hlt : ((f n).take (min 32 (L - 32 * n))).length = min 32 (L - 32 * n) := by
    rw [List.length_take, hf]; omega
  rw [htw, hm, List.take_of_length_le (by rw [hbl]; omega),
    Hash.writeAt_append (hbl n) (by rw [hlt, List.length_drop]; omega), hlt, List.drop_drop]
  have e1 : 32 * n + min 32 (L - 32 * n) = min (32 * (n + 1)) L := by omega
  rw [e1, Hash.blocks_take f hf (by omega)]

/-- Iteration 1. -/
theorem step_one (e : Env) (L : ℕ) (prk info : List UInt8) (p2 : Option ℕ) (s : ExpandState) (k b : ℕ) (buf : List UInt8)
    (pre rest : List (ℕ × List UInt8)) (ht : s.t.length = 32) (hb : buf.length = info.length + 1)
    (h1 : ∀ x ∈ pre, x.1 ≠ b) (h2 : ∀ x ∈ rest, x.1 ≠ b) (hf : Fresh ⟨k, pre ++ (b, buf) :: rest⟩)
    (hw : s.written < L) :
    expandStep e L prk info (some b) p2 1 s ⟨k, pre ++ (b, buf) :: rest⟩ =
      let t := if e.grants k then Hash.hmac (info ++ [UInt8.ofNat 1]) prk else s.t
      let toWrite := if L - s.written > 32 then 32 else L - s.written
      (writeAt s.okm s.written (t.take toWrite)).map fun okm =>
        (.ok ⟨t, s.written + toWrite, okm⟩, ⟨k + 1, pre ++ (b, info ++ [UInt8.ofNat 1]) :: rest⟩) := by
  unfold expandStep
  rw [if_pos rfl, store_mid _ _ _ _ _ _ _ h1 h2, writeAt_zero (by omega), Option.map_some, Option.bind_some,
    store_mid _ _ _ _ _ _ _ h1 h2, writeAt_end rfl (by rw [List.length_drop, hb]; simp), Option.map_some, Option.bind_some,
    load_mid _ _ _ _ _ h1, Option.bind_some, List.take_of_length_le (by simp)]
  have hf' : Fresh ⟨k, pre ++ (b, info ++ [UInt8.ofNat 1]) :: rest⟩ := by
    intro x hx
    rcases List.mem_append.1 hx with hx | hx
    · exact hf x (List.mem_append_left _ hx)
    · rcases List.mem_cons.1 hx with rfl | hx
      · exact hf (b, buf) (by simp)
      · exact hf x (by simp [hx])
  rw [hmac_run e s.t _ _ ht _ hf', Option.bind_some]
  dsimp only
  have hne : ¬((if L - s.written > 32 then 32 else L - s.written) ≤ 0 ∨
      (if L - s.written > 32 then 32 else L - s.written) > 32) := by split <;> omega
  cases e.grants k <;> simp only [if_true, Bool.false_eq_true, if_false, if_neg hne]

/-- Iteration `i ≥ 2`. -/
theorem step_next (e : Env) (L : ℕ) (prk info : List UInt8) (p1 : Option ℕ) (i : ℕ) (hi : i ≠ 1) (s : ExpandState) (k b : ℕ)
    (buf : List UInt8) (rest : List (ℕ × List UInt8)) (ht : s.t.length = 32) (hb : buf.length = 32 + info.length + 1)
    (h2 : ∀ x ∈ rest, x.1 ≠ b) (hf : Fresh ⟨k, (b, buf) :: rest⟩) (hw : s.written < L) :
    expandStep e L prk info p1 (some b) i s ⟨k, (b, buf) :: rest⟩ =
      let t := if e.grants k then Hash.hmac (s.t ++ info ++ [UInt8.ofNat i]) prk else s.t
      let toWrite := if L - s.written > 32 then 32 else L - s.written
      (writeAt s.okm s.written (t.take toWrite)).map fun okm =>
        (.ok ⟨t, s.written + toWrite, okm⟩, ⟨k + 1, (b, s.t ++ info ++ [UInt8.ofNat i]) :: rest⟩) := by
  have sm := fun off buf bs => store_mid k b off buf bs [] rest (by simp) h2
  have lm := fun buf => load_mid k b buf [] rest (by simp)
  simp only [List.nil_append] at sm lm
  unfold expandStep
  rw [if_neg hi, sm, writeAt_zero (by omega), Option.map_some, Option.bind_some,
    sm, Hash.writeAt_append ht (by rw [List.length_drop]; omega), Option.map_some, Option.bind_some,
    sm, writeAt_end (by rw [List.length_append, ht]) (by rw [List.length_drop, List.length_drop, hb, ht]; simp; omega),
    Option.map_some, Option.bind_some, lm, Option.bind_some,
    List.take_of_length_le (by rw [List.length_append, List.length_append, ht]; simp)]
  have hf' : Fresh ⟨k, (b, s.t ++ info ++ [UInt8.ofNat i]) :: rest⟩ := by
    intro x hx
    rcases List.mem_cons.1 hx with rfl | hx
    · exact hf (b, buf) (by simp)
    · exact hf x (by simp [hx])
  rw [hmac_run e s.t _ _ ht _ hf', Option.bind_some]
  dsimp only
  have hne : ¬((if L - s.written > 32 then 32 else L - s.written) ≤ 0 ∨
      (if L - s.written > 32 then 32 else L - s.written) > 32) := by split <;> omega
  cases e.grants k <;> simp only [if_true, Bool.false_eq_true, if_false, if_neg hne]

variable {H : List UInt8 → List UInt8} (hH : IsSha H)
include hH

theorem faultyT_length (good : ℕ → Bool) (t0 prk info : List UInt8) (h0 : t0.length = 32) :
    ∀ n, (Rfc.faultyT H good t0 prk info n).length = 32
  | 0 => h0
  | n + 1 => by
    rw [Rfc.faultyT]
    split
    · exact Hash.hmac_length hH _ _
    · exact faultyT_length good t0 prk info h0 n

/-- The iterations after the first. -/
theorem loop_next (e : Env) (L : ℕ) (prk info okm t0 : List UInt8) (hok : L ≤ okm.length) (h0 : t0.length = 32)
    (good : ℕ → Bool) (base : ℕ) (hg : ∀ i, good (i + 1) = e.grants (base + i)) (p1 : Option ℕ) (b : ℕ)
    (rest : List (ℕ × List UInt8)) (h2 : ∀ x ∈ rest, x.1 ≠ b) (hfr : ∀ x ∈ rest, x.1 < base) (hb : b < base) :
    ∀ r n : ℕ, n ≠ 0 → (r = 0 ∨ 32 * (n + r - 1) < L) → ∀ buf : List UInt8, buf.length = 32 + info.length + 1 →
    ∃ buf' : List UInt8,
    expandLoop e L prk info p1 (some b) r (n + 1) ⟨Rfc.faultyT H good t0 prk info n, min (32 * n) L,
      (Hash.blocks (fun i => Rfc.faultyT H good t0 prk info (i + 1)) n).take L ++ okm.drop (min (32 * n) L)⟩
      ⟨base + n, (b, buf) :: rest⟩ =
    some (.ok ⟨Rfc.faultyT H good t0 prk info (n + r), min (32 * (n + r)) L,
      (Hash.blocks (fun i => Rfc.faultyT H good t0 prk info (i + 1)) (n + r)).take L ++ okm.drop (min (32 * (n + r)) L)⟩,
      ⟨base + (n + r), (b, buf') :: rest⟩)
  | 0, n, _, _, buf, _ => ⟨buf, rfl⟩
  | r + 1, n, hn, hr, buf, hbuf => by
    have hlt : 32 * n < L := by omega
    have hfl := faultyT_length hH good t0 prk info h0
    rw [expandLoop, step_next e L prk info p1 (n + 1) (by omega) _ _ _ _ _ (hfl n) hbuf h2 (by
      intro x hx
      rcases List.mem_cons.1 hx with rfl | hx
      · exact Nat.lt_of_lt_of_le hb (Nat.le_add_right _ _)
      · exact Nat.lt_of_lt_of_le (hfr x hx) (Nat.le_add_right _ _)) (by dsimp only; omega)]
    dsimp only
    have ht : (if e.grants (base + n) = true then Hash.hmac (Rfc.faultyT H good t0 prk info n ++ info ++ [UInt8.ofNat (n + 1)]) prk
        else Rfc.faultyT H good t0 prk info n) = Rfc.faultyT H good t0 prk info (n + 1) := by
      rw [Rfc.faultyT, hg, if_neg hn, Hash.hmac_eq hH]
    rw [ht, write_block (fun i => Rfc.faultyT H good t0 prk info (i + 1)) (fun i => hfl (i + 1)) okm hok hlt, Option.map_some,
      Option.bind_some]
    dsimp only
    have hw : min (32 * n) L + (if L - min (32 * n) L > 32 then 32 else L - min (32 * n) L) = min (32 * (n + 1)) L := by
      split <;> omega
    rw [hw]
    obtain ⟨buf', e'⟩ := loop_next e L prk info okm t0 hok h0 good base hg p1 b rest h2 hfr hb r (n + 1) (by omega) (by omega)
      (Rfc.faultyT H good t0 prk info n ++ info ++ [UInt8.ofNat (n + 1)])
      (by rw [List.length_append, List.length_append, hfl]; simp)
    refine ⟨buf', ?_⟩
    rw [Nat.add_assoc base n 1, e']
    have : n + 1 + r = n + (r + 1) := by omega
    rw [this]

/-- `hkdf256_expand` on any heap. -/
theorem expand_run (e : Env) (okm prk info : List UInt8) (L : ℕ) (hprk : prk.length = 32) (hL : 1 ≤ L) (hL' : L ≤ 8160)
    (hok : L ≤ okm.length) (h : Heap) (hf : Fresh h) :
    expand e okm L prk info h =
      if e.grants h.calls = false ∨ 32 < L ∧ e.grants (h.calls + 1) = false then none
      else some ((0, Rfc.faultyExpand H (fun i => e.grants (h.calls + 1 + i)) (array 32 (e.t h.calls)) prk info L ++ okm.drop L),
        ⟨h.calls + 2 + (L + 31) / 32, h.blocks⟩) := by
  obtain ⟨c, B⟩ := h
  have hold : ∀ x ∈ B, x.1 < c := hf
  have hN : min (32 * ((L + 32 - 1) / 32)) L = L := by omega
  have hN1 : (L + 32 - 1) / 32 = (L + 31) / 32 := rfl
  unfold expand
  rw [if_neg (by omega)]
  dsimp only
  set good : ℕ → Bool := fun i => e.grants (c + 1 + i) with hgood
  set t0 := array 32 (e.t c) with ht0
  have h0 : t0.length = 32 := array_length _ _
  have hg : ∀ i, good (i + 1) = e.grants (c + 2 + i) := fun i => by
    show e.grants (c + 1 + (i + 1)) = _
    rw [show c + 1 + (i + 1) = c + 2 + i by omega]
  have hfl := faultyT_length hH good t0 prk info h0
  rw [List.take_of_length_le hprk.le]
  cases g1 : e.grants c with
  | false =>
    rw [if_pos (Or.inl rfl)]
    obtain ⟨n, hn⟩ : ∃ n, (L + 32 - 1) / 32 = n + 1 := ⟨(L + 32 - 1) / 32 - 1, by omega⟩
    rw [if_neg (by omega), hn, expandLoop]
    have : expandStep e L prk info (malloc e (info.length + 1) ⟨c, B⟩).1 (malloc e (32 + info.length + 1)
        (malloc e (info.length + 1) ⟨c, B⟩).2).1 1 ⟨t0, 0, okm⟩ (malloc e (32 + info.length + 1)
        (malloc e (info.length + 1) ⟨c, B⟩).2).2 = none := by
      have e1 : malloc e (info.length + 1) ⟨c, B⟩ = (none, ⟨c + 1, B⟩) := by
        unfold malloc; simp only [g1, Bool.false_eq_true, if_false]
      rw [e1]
      rfl
    rw [this]
    rfl
  | true =>
    have e1 : malloc e (info.length + 1) ⟨c, B⟩ = (some c, ⟨c + 1, (c, array (info.length + 1) (e.block c)) :: B⟩) := by
      unfold malloc; simp only [g1, if_true]
    rw [e1]
    obtain ⟨n, hn⟩ : ∃ n, (L + 32 - 1) / 32 = n + 1 := ⟨(L + 32 - 1) / 32 - 1, by omega⟩
    rw [if_neg (by omega), hn, expandLoop]
    have hBc : ∀ x ∈ B, x.1 ≠ c := fun x hx => (hold x hx).ne
    have hBc1 : ∀ x ∈ B, x.1 ≠ c + 1 := fun x hx => by have := hold x hx; omega
    have hT1 : (if e.grants (c + 2) then Hash.hmac (info ++ [UInt8.ofNat 1]) prk else t0) =
        Rfc.faultyT H good t0 prk info 1 := by
      rw [Rfc.faultyT, Rfc.faultyT, hg, if_pos rfl, List.nil_append, Hash.hmac_eq hH]
    have hw := write_block (fun i => Rfc.faultyT H good t0 prk info (i + 1)) (fun i => hfl (i + 1)) (n := 0) okm hok (by omega)
    have hz : min (32 * 0) L = 0 := by omega
    have hb0 : (Hash.blocks (fun i => Rfc.faultyT H good t0 prk info (i + 1)) 0).take L = [] := by
      rw [Hash.blocks]; simp
    rw [hz, hb0, List.drop_zero, List.nil_append] at hw
    have hwr : 0 + (if L - 0 > 32 then 32 else L - 0) = min (32 * (0 + 1)) L := by split <;> omega
    cases g2 : e.grants (c + 1) with
    | true =>
      have e2 : malloc e (32 + info.length + 1) ⟨c + 1, (c, array (info.length + 1) (e.block c)) :: B⟩ =
          (some (c + 1), ⟨c + 2, (c + 1, array (32 + info.length + 1) (e.block (c + 1))) ::
            (c, array (info.length + 1) (e.block c)) :: B⟩) := by
        unfold malloc; simp only [g2, if_true]
      rw [e2, if_neg (by simp)]
      have s1 := step_one e L prk info (some (c + 1)) ⟨t0, 0, okm⟩ (c + 2) c (array (info.length + 1) (e.block c))
        [(c + 1, array (32 + info.length + 1) (e.block (c + 1)))] B h0 (array_length _ _) (by simp) hBc (by
          intro x hx
          simp only [List.singleton_append, List.mem_cons] at hx
          rcases hx with rfl | rfl | hx
          · dsimp only; omega
          · dsimp only; omega
          · have := hold x hx; dsimp only; omega) (by dsimp only; omega)
      rw [List.singleton_append, List.singleton_append] at s1
      rw [s1]
      dsimp only
      rw [hT1, hw, Option.map_some, Option.bind_some]
      dsimp only
      rw [hwr]
      obtain ⟨buf', e'⟩ := loop_next hH e L prk info okm t0 hok h0 good (c + 2) hg (some c) (c + 1)
        ((c, info ++ [UInt8.ofNat 1]) :: B) (by
          intro x hx
          rcases List.mem_cons.1 hx with rfl | hx
          · dsimp only; omega
          · exact hBc1 x hx) (by
          intro x hx
          rcases List.mem_cons.1 hx with rfl | hx
          · dsimp only; omega
          · have := hold x hx; omega) (by omega) n 1 (by omega) (by omega)
        (array (32 + info.length + 1) (e.block (c + 1))) (array_length _ _)
      rw [e', Option.bind_some]
      dsimp only
      have f1 := free_mid (c + 2 + (1 + n)) c (info ++ [UInt8.ofNat 1]) [(c + 1, buf')] B (by simp) hBc
      have f2 := free_mid (c + 2 + (1 + n)) (c + 1) buf' [] B (by simp) hBc1
      rw [List.singleton_append, List.singleton_append] at f1
      rw [List.nil_append, List.nil_append] at f2
      rw [f1, Option.bind_some, f2, Option.map_some]
      have hn1 : 1 + n = (L + 31) / 32 := by omega
      have hm : min (32 * ((L + 31) / 32)) L = L := hN
      rw [hn1, hm, if_neg (by simp)]
      rfl
    | false =>
      have e2 : malloc e (32 + info.length + 1) ⟨c + 1, (c, array (info.length + 1) (e.block c)) :: B⟩ =
          (none, ⟨c + 2, (c, array (info.length + 1) (e.block c)) :: B⟩) := by
        unfold malloc; simp only [g2, Bool.false_eq_true, if_false]
      rw [e2]
      have s1 := step_one e L prk info none ⟨t0, 0, okm⟩ (c + 2) c (array (info.length + 1) (e.block c))
        [] B h0 (array_length _ _) (by simp) hBc (by
          intro x hx
          rw [List.nil_append] at hx
          rcases List.mem_cons.1 hx with rfl | hx
          · dsimp only; omega
          · have := hold x hx; dsimp only; omega) (by dsimp only; omega)
      rw [List.nil_append, List.nil_append] at s1
      rw [s1]
      dsimp only
      rw [hT1, hw, Option.map_some, Option.bind_some]
      dsimp only
      rw [hwr]
      cases n with
      | zero =>
        rw [expandLoop, Option.bind_some, if_neg (by simp; omega)]
        dsimp only
        have f1 := free_mid (c + 2 + 1) c (info ++ [UInt8.ofNat 1]) [] B (by simp) hBc
        rw [List.nil_append, List.nil_append] at f1
        rw [f1, Option.bind_some, free, Option.map_some]
        have hn1 : 0 + 1 = (L + 31) / 32 := by omega
        have hm : min (32 * ((L + 31) / 32)) L = L := hN
        rw [hn1, hm, if_neg (by simp)]
        congr 2
        rw [← hn1]
      | succ n =>
        rw [expandLoop, if_pos (by simp; omega)]
        have : ∀ s h, expandStep e L prk info (some c) none (1 + 1) s h = none := fun s h => rfl
        rw [this]
        rfl

omit hH in
/-- The length 0: both blocks stay. -/
theorem expand_zero (e : Env) (okm prk info : List UInt8) (h : Heap) :
    expand e okm 0 prk info h = some ((-3, okm), (malloc e (32 + info.length + 1) (malloc e (info.length + 1) h).2).2) := rfl

end Bls.Malloc
