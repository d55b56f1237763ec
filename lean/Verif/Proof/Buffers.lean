import Verif.Model.Buffers
import Verif.Spec.Buffers
import Verif.Proof.Hash

/-! The hash functions on overlapping buffers. -/

namespace Bls.Buffers
open Hash (IsSha blocks)

theorem load_length (m : Mem) (p : Ptr) (n : ℕ) : (load m p n).length = n := by simp [load]

theorem load_congr {m m' : Mem} {p : Ptr} {n : ℕ} (h : ∀ i < n, m p.obj (p.off + i) = m' p.obj (p.off + i)) :
    load m p n = load m' p n :=
  List.map_congr_left fun i hi => h i (List.mem_range.1 hi)

theorem load_obj {m m' : Mem} {p : Ptr} (n : ℕ) (h : m p.obj = m' p.obj) : load m p n = load m' p n :=
  load_congr fun _ _ => by rw [h]

theorem load_add (m : Mem) (p : Ptr) (n k : ℕ) : load m p (n + k) = load m p n ++ load m ⟨p.obj, p.off + n⟩ k := by
  simp only [load, List.range_add, List.map_append, List.map_map]
  congr 1
  exact List.map_congr_left fun i _ => by simp [Nat.add_assoc]

theorem store_obj {m : Mem} {p : Ptr} {bs : List UInt8} {o : Obj} (h : o ≠ p.obj) : store m p bs o = m o := by
  funext a
  rw [store, if_neg (fun x => h x.1)]

theorem load_store (m : Mem) (p : Ptr) (bs : List UInt8) (n : ℕ) (hn : n = bs.length) : load (store m p bs) p n = bs := by
  subst hn
  apply List.ext_getElem (by rw [load_length])
  intro i h1 h2
  simp only [load, List.getElem_map, List.getElem_range]
  rw [store, if_pos ⟨rfl, by omega, by omega⟩, Nat.add_sub_cancel_left, List.getD_eq_getElem _ _ h2]

theorem load_store_apart {m : Mem} {p q : Ptr} {bs : List UInt8} {n : ℕ}
    (h : q.obj = p.obj → ∀ i < n, p.off ≤ q.off + i → q.off + i < p.off + bs.length → False) :
    load (store m p bs) q n = load m q n :=
  load_congr fun i hi => by rw [store, if_neg (fun x => h x.1 i hi x.2.1 x.2.2)]

theorem load_store_obj {m : Mem} {p q : Ptr} {bs : List UInt8} {n : ℕ} (h : q.obj ≠ p.obj) :
    load (store m p bs) q n = load m q n := load_store_apart fun e => absurd e h

theorem store_nil (m : Mem) (p : Ptr) : store m p [] = m := by
  funext o a
  rw [store, if_neg]
  rw [List.length_nil]
  omega

theorem store_append (m : Mem) (o : Obj) (a n : ℕ) (u v : List UInt8) (hn : n = u.length) :
    store (store m ⟨o, a⟩ u) ⟨o, a + n⟩ v = store m ⟨o, a⟩ (u ++ v) := by
  subst hn
  funext o' x
  simp only [store, List.length_append]
  by_cases ho : o' = o
  · by_cases h1 : a + u.length ≤ x ∧ x < a + u.length + v.length
    · rw [if_pos ⟨ho, h1.1, h1.2⟩, if_pos ⟨ho, by omega, by omega⟩, List.getD_append_right _ _ _ _ (by omega)]
      congr 1
      omega
    · rw [if_neg (fun h => h1 h.2)]
      by_cases h2 : a ≤ x ∧ x < a + u.length
      · rw [if_pos ⟨ho, h2.1, h2.2⟩, if_pos ⟨ho, by omega, by omega⟩, List.getD_append _ _ _ _ (by omega)]
      · rw [if_neg (fun h => h2 h.2), if_neg (fun h => by omega)]
  · rw [if_neg (fun h => ho h.1), if_neg (fun h => ho h.1), if_neg (fun h => ho h.1)]

theorem memcpy_obj {m : Mem} {d s : Ptr} {n : ℕ} (h : d.obj ≠ s.obj) : memcpy m d s n = some (store m d (load m s n)) :=
  if_neg fun x => h x.2.1

/-- The objects that are not local to `hkdf256_hmac`. -/
def Outer (o : Obj) : Prop := o ≠ .key ∧ o ≠ .opad ∧ o ≠ .ipad

theorem store_agree {m m' : Mem} {p : Ptr} {bs : List UInt8} {o : Obj} (h : m o = m' o) : store m p bs o = store m' p bs o := by
  funext a
  simp only [store, h]

variable {H : List UInt8 → List UInt8} (hH : IsSha H)
include hH

theorem hmac_mem (mac inp : Ptr) (inLen : ℕ) (key : Ptr) (keyLen : ℕ) (m : Mem) (h1 : Outer mac.obj) (h2 : Outer inp.obj)
    (h3 : Outer key.obj) (hk : keyLen ≤ 64) :
    ∃ m', hmac mac inp inLen key keyLen m = some m' ∧
      ∀ o, Outer o → m' o = store m mac (Rfc.hmac H (load m key keyLen) (load m inp inLen)) o := by
  have hk' : ¬ keyLen > 64 := by omega
  unfold hmac
  simp only [if_neg hk', if_pos hk]
  rw [memcpy_obj (Ne.symm h3.1)]
  simp only [Option.map_some, Option.bind_some]
  rw [memcpy_obj (Ne.symm h2.2.2)]
  simp only [Option.map_some]
  refine ⟨_, rfl, fun o ho => ?_⟩
  set k0 : List UInt8 := load m key keyLen ++ List.replicate (64 - keyLen) 0 with hk0
  have hl : k0.length = 64 := by rw [hk0, List.length_append, load_length, List.length_replicate]; omega
  have e0 : store (store m ⟨.key, 0⟩ (load m key keyLen)) ⟨.key, keyLen⟩ (List.replicate (64 - keyLen) 0) =
      store m ⟨.key, 0⟩ k0 := by
    have := store_append m .key 0 keyLen (load m key keyLen) (List.replicate (64 - keyLen) 0) (load_length _ _ _).symm
    rwa [Nat.zero_add] at this
  rw [e0, load_store m ⟨.key, 0⟩ k0 64 hl.symm]
  set m1 := store (store (store m ⟨.key, 0⟩ k0) ⟨.opad, 0⟩ (k0.map (0x5c ^^^ ·))) ⟨.ipad, 0⟩ (k0.map (0x36 ^^^ ·)) with hm1
  have hout : ∀ o, Outer o → m1 o = m o := fun o ho => by
    rw [hm1, store_obj ho.2.2, store_obj ho.2.1, store_obj ho.1]
  have ein : load m1 inp inLen = load m inp inLen := load_obj _ (hout _ h2)
  have ei : store m1 ⟨.ipad, 64⟩ (load m inp inLen) = store (store (store m ⟨.key, 0⟩ k0) ⟨.opad, 0⟩ (k0.map (0x5c ^^^ ·)))
      ⟨.ipad, 0⟩ (k0.map (0x36 ^^^ ·) ++ load m inp inLen) := by
    have := store_append (store (store m ⟨.key, 0⟩ k0) ⟨.opad, 0⟩ (k0.map (0x5c ^^^ ·))) .ipad 0 64 (k0.map (0x36 ^^^ ·))
      (load m inp inLen) (by rw [List.length_map, hl])
    rwa [Nat.zero_add] at this
  rw [ein, ei, load_store _ ⟨.ipad, 0⟩ _ (64 + inLen) (by rw [List.length_append, List.length_map, hl, load_length])]
  set inner := Sha256.hash [k0.map (0x36 ^^^ ·) ++ load m inp inLen] with hinner
  have eo : load (store (store (store (store m ⟨.key, 0⟩ k0) ⟨.opad, 0⟩ (k0.map (0x5c ^^^ ·))) ⟨.ipad, 0⟩
      (k0.map (0x36 ^^^ ·) ++ load m inp inLen)) ⟨.opad, 64⟩ inner) ⟨.opad, 0⟩ (64 + 32) = k0.map (0x5c ^^^ ·) ++ inner := by
    rw [load_add, load_store_apart (fun _ i hi h _ => by simp only [Nat.zero_add] at h; omega),
      load_store_obj (by decide), load_store _ _ _ _ (by rw [List.length_map, hl]),
      load_store _ _ _ _ (by rw [hinner, Sha256.hash_length])]
  rw [eo]
  have ev : Sha256.hash [k0.map (0x5c ^^^ ·) ++ inner] = Rfc.hmac H (load m key keyLen) (load m inp inLen) := by
    rw [← Hash.hmac_eq hH, Hash.hmac]
    simp only [load_length, if_neg hk']
    rw [hinner, hk0]
  rw [ev]
  refine store_agree ?_
  rw [store_obj ho.2.1, store_obj ho.2.2, store_obj ho.2.1, store_obj ho.1]

omit hH in
theorem hmac_long (mac inp : Ptr) (inLen : ℕ) (key : Ptr) (keyLen : ℕ) (m : Mem) (hk : 64 < keyLen) :
    hmac mac inp inLen key keyLen m = none := by
  unfold hmac
  simp only [if_pos (show keyLen > 64 from hk), if_pos (show 32 ≤ 64 by decide)]
  rw [memcpy, if_pos (by simp)]
  rfl

/-- The objects of the caller of `hkdf256_expand`. -/
def Arg (o : Obj) : Prop := o = .caller ∨ o = .prk

omit hH in
theorem Arg.outer {o : Obj} (h : Arg o) : Outer o := by
  rcases h with rfl | rfl <;> exact ⟨by decide, by decide, by decide⟩

omit hH in
theorem Arg.ne {o : Obj} (h : Arg o) : o ≠ .t ∧ o ≠ .input1 ∧ o ≠ .input ∧ o ≠ .b0 ∧ o ≠ .bi := by
  rcases h with rfl | rfl <;> exact ⟨by decide, by decide, by decide, by decide, by decide⟩

/-- The loop of `hkdf256_expand` for all placements: memory and `T` after `n` iterations. Each iteration reads `prk` and `info`
from the memory that the iterations before have left. -/
def run (H : List UInt8 → List UInt8) (okm : Ptr) (L : ℕ) (prk info : Ptr) (infoLen : ℕ) (m : Mem) : ℕ → Mem × List UInt8
  | 0 => (m, [])
  | n + 1 =>
    let r := run H okm L prk info infoLen m n
    let t := Rfc.hmac H (load r.1 prk 32) (r.2 ++ load r.1 info infoLen ++ [UInt8.ofNat (n + 1)])
    (store r.1 ⟨okm.obj, okm.off + 32 * n⟩ (t.take (min 32 (L - 32 * n))), t)

theorem run_length (okm : Ptr) (L : ℕ) (prk info : Ptr) (infoLen : ℕ) (m : Mem) (n : ℕ) :
    (run H okm L prk info infoLen m (n + 1)).2.length = 32 := Hash.hmac_length hH _ _

theorem expandLoop_run (okm : Ptr) (L : ℕ) (prk info : Ptr) (infoLen : ℕ) (m : Mem) (ho : Arg okm.obj) (hp : Arg prk.obj)
    (hi : Arg info.obj) : ∀ n, (n = 0 ∨ 32 * (n - 1) < L) → ∃ m', expandLoop okm L prk info infoLen m n = some (.ok (min (32 * n) L), m') ∧
      (∀ o, Arg o → m' o = (run H okm L prk info infoLen m n).1 o) ∧
      (n ≠ 0 → load m' ⟨.t, 0⟩ 32 = (run H okm L prk info infoLen m n).2)
  | 0, _ => ⟨m, by rw [expandLoop, Nat.mul_zero, Nat.zero_min], fun _ _ => rfl, fun h => absurd rfl h⟩
  | n + 1, h => by
    obtain ⟨m1, e1, e2, e3⟩ := expandLoop_run okm L prk info infoLen m ho hp hi n (by omega)
    set r := run H okm L prk info infoLen m n with hr
    set t := Rfc.hmac H (load r.1 prk 32) (r.2 ++ load r.1 info infoLen ++ [UInt8.ofNat (n + 1)]) with ht
    have htl : t.length = 32 := Hash.hmac_length hH _ _
    have hrun : run H okm L prk info infoLen m (n + 1) =
        (store r.1 ⟨okm.obj, okm.off + 32 * n⟩ (t.take (min 32 (L - 32 * n))), t) := rfl
    have eI : load m1 info infoLen = load r.1 info infoLen := load_obj _ (e2 _ hi)
    have eP : load m1 prk 32 = load r.1 prk 32 := load_obj _ (e2 _ hp)
    have hmid : ∃ m2, (if n + 1 = 1 then
        (memcpy m1 ⟨.input1, 0⟩ info infoLen).bind fun m =>
        hmac ⟨.t, 0⟩ ⟨.input1, 0⟩ (infoLen + 1) prk 32 (store m ⟨.input1, infoLen⟩ [UInt8.ofNat (n + 1)])
      else
        (memcpy m1 ⟨.input, 0⟩ ⟨.t, 0⟩ 32).bind fun m =>
        (memcpy m ⟨.input, 32⟩ info infoLen).bind fun m =>
        hmac ⟨.t, 0⟩ ⟨.input, 0⟩ (32 + infoLen + 1) prk 32 (store m ⟨.input, 32 + infoLen⟩ [UInt8.ofNat (n + 1)])) = some m2 ∧
        (∀ o, Arg o → m2 o = r.1 o) ∧ load m2 ⟨.t, 0⟩ 32 = t := by
      by_cases hn : n = 0
      · have hr2 : r.2 = [] := by rw [hr, hn]; rfl
        rw [if_pos (by omega), memcpy_obj (Ne.symm hi.ne.2.1), Option.bind_some]
        have es := store_append m1 .input1 0 infoLen (load m1 info infoLen) [UInt8.ofNat (n + 1)] (load_length _ _ _).symm
        rw [Nat.zero_add] at es
        rw [es]
        set m2 := store m1 ⟨.input1, 0⟩ (load m1 info infoLen ++ [UInt8.ofNat (n + 1)]) with hm2
        obtain ⟨m3, f1, f2⟩ := hmac_mem hH ⟨.t, 0⟩ ⟨.input1, 0⟩ (infoLen + 1) prk 32 m2 ⟨by decide, by decide, by decide⟩
          ⟨by decide, by decide, by decide⟩ hp.outer (by decide)
        have g1 : load m2 ⟨.input1, 0⟩ (infoLen + 1) = load m1 info infoLen ++ [UInt8.ofNat (n + 1)] :=
          load_store _ _ _ _ (by rw [List.length_append, load_length]; rfl)
        have g2 : load m2 prk 32 = load m1 prk 32 := load_store_obj hp.ne.2.1
        rw [g1, g2, eI, eP] at f2
        refine ⟨m3, f1, fun o hoo => ?_, ?_⟩
        · rw [f2 o hoo.outer, store_obj hoo.ne.1, hm2, store_obj hoo.ne.2.1, e2 o hoo]
        · rw [load_obj 32 (f2 .t ⟨by decide, by decide, by decide⟩), load_store _ _ _ _ (Hash.hmac_length hH _ _).symm, ht, hr2,
            List.nil_append]
      · rw [if_neg (by omega), memcpy_obj (by decide), Option.bind_some, memcpy_obj (Ne.symm hi.ne.2.2.1), Option.bind_some]
        have gI : load (store m1 ⟨.input, 0⟩ (load m1 ⟨.t, 0⟩ 32)) info infoLen = load m1 info infoLen := load_store_obj hi.ne.2.2.1
        have es0 := store_append m1 .input 0 32 (load m1 ⟨.t, 0⟩ 32) (load m1 info infoLen) (load_length _ _ _).symm
        have es := store_append m1 .input 0 (32 + infoLen) (load m1 ⟨.t, 0⟩ 32 ++ load m1 info infoLen) [UInt8.ofNat (n + 1)]
          (by rw [List.length_append, load_length, load_length])
        rw [Nat.zero_add] at es es0
        rw [gI, es0, es]
        set m2 := store m1 ⟨.input, 0⟩ (load m1 ⟨.t, 0⟩ 32 ++ load m1 info infoLen ++ [UInt8.ofNat (n + 1)]) with hm2
        obtain ⟨m3, f1, f2⟩ := hmac_mem hH ⟨.t, 0⟩ ⟨.input, 0⟩ (32 + infoLen + 1) prk 32 m2 ⟨by decide, by decide, by decide⟩
          ⟨by decide, by decide, by decide⟩ hp.outer (by decide)
        have g1 : load m2 ⟨.input, 0⟩ (32 + infoLen + 1) = load m1 ⟨.t, 0⟩ 32 ++ load m1 info infoLen ++ [UInt8.ofNat (n + 1)] :=
          load_store _ _ _ _ (by rw [List.length_append, List.length_append, load_length, load_length]; rfl)
        have g2 : load m2 prk 32 = load m1 prk 32 := load_store_obj hp.ne.2.2.1
        rw [g1, g2, eI, eP, e3 hn] at f2
        refine ⟨m3, f1, fun o hoo => ?_, ?_⟩
        · rw [f2 o hoo.outer, store_obj hoo.ne.1, hm2, store_obj hoo.ne.2.2.1, e2 o hoo]
        · rw [load_obj 32 (f2 .t ⟨by decide, by decide, by decide⟩), load_store _ _ _ _ (Hash.hmac_length hH _ _).symm]
    obtain ⟨m2, f1, f2, f3⟩ := hmid
    have hm : min (32 * n) L = 32 * n := by omega
    have htw : (if L - min (32 * n) L > 32 then 32 else L - min (32 * n) L) = min 32 (L - 32 * n) := by
      rw [hm]; split <;> omega
    rw [expandLoop, e1, Option.bind_some]
    dsimp only
    rw [expandStep, f1, Option.bind_some]
    dsimp only
    rw [htw, if_neg (by omega), hm, memcpy_obj ho.ne.1, Option.map_some]
    have hld : load m2 ⟨.t, 0⟩ (min 32 (L - 32 * n)) = t.take (min 32 (L - 32 * n)) := by
      have := load_add m2 ⟨.t, 0⟩ (min 32 (L - 32 * n)) (32 - min 32 (L - 32 * n))
      rw [Nat.add_sub_cancel' (by omega), f3] at this
      rw [this, List.take_left' (load_length _ _ _)]
    refine ⟨_, by rw [show 32 * n + min 32 (L - 32 * n) = min (32 * (n + 1)) L by omega], fun o hoo => ?_, fun _ => ?_⟩
    · rw [hrun, hld]
      exact store_agree (f2 o hoo)
    · rw [load_store_obj (Ne.symm ho.ne.1), f3, hrun]

/-- While the output does not meet `prk` and `info`, or there is only one iteration, the iterations compute the blocks of
HKDF-Expand. -/
theorem run_apart (okm : Ptr) (L : ℕ) (prk info : Ptr) (infoLen : ℕ) (m : Mem)
    (hd : L ≤ 32 ∨ ((prk.obj = okm.obj → Rfc.Apart okm.off L prk.off 32) ∧ (info.obj = okm.obj → Rfc.Apart okm.off L info.off infoLen))) :
    ∀ n, (n = 0 ∨ 32 * (n - 1) < L) → run H okm L prk info infoLen m n =
      (store m okm ((blocks (fun i => Rfc.T H (load m prk 32) (load m info infoLen) (i + 1)) n).take L),
        Rfc.T H (load m prk 32) (load m info infoLen) n)
  | 0, _ => by
    rw [run, Rfc.T]
    congr 1
    rw [show blocks _ 0 = [] from rfl, List.take_nil, store_nil]
  | n + 1, h => by
    have ih := run_apart okm L prk info infoLen m hd n (by omega)
    set T := Rfc.T H (load m prk 32) (load m info infoLen) with hT
    have hTl : ∀ i, (T (i + 1)).length = 32 := fun i => Hash.T_length hH _ _ i
    have hbl := Hash.blocks_length (fun i => T (i + 1)) hTl n
    have hbt : (blocks (fun i => T (i + 1)) n).take L = blocks (fun i => T (i + 1)) n := List.take_of_length_le (by rw [hbl]; omega)
    have key : ∀ (q : Ptr) (k : ℕ), (L ≤ 32 ∨ (q.obj = okm.obj → Rfc.Apart okm.off L q.off k)) →
        load (store m okm (blocks (fun i => T (i + 1)) n)) q k = load m q k := fun q k hq => by
      refine load_store_apart fun e i hi h1 h2 => ?_
      rw [hbl] at h2
      rcases hq with hq | hq
      · omega
      · exact hq e _ h1 (by omega) (by omega) (by omega)
    rw [run]
    rw [ih, hbt]
    dsimp only
    rw [key prk 32 (hd.imp_right fun h => h.1), key info infoLen (hd.imp_right fun h => h.2)]
    have ht : Rfc.hmac H (load m prk 32) (T n ++ load m info infoLen ++ [UInt8.ofNat (n + 1)]) = T (n + 1) := rfl
    rw [ht]
    congr 1
    have := store_append m okm.obj okm.off (32 * n) (blocks (fun i => T (i + 1)) n) ((T (n + 1)).take (min 32 (L - 32 * n))) hbl.symm
    rw [show (⟨okm.obj, okm.off⟩ : Ptr) = okm from rfl] at this
    rw [this]
    have hb := Hash.blocks_take (fun i => T (i + 1)) hTl (n := n) (L := L) (by omega)
    rw [hb]

/-- `hkdf256_expand` for all placements. -/
theorem expand_run (okm : Ptr) (L : ℕ) (prk info : Ptr) (infoLen : ℕ) (m : Mem) (ho : Arg okm.obj) (hp : Arg prk.obj)
    (hi : Arg info.obj) (hL : 1 ≤ L) (hL' : L ≤ 8160) :
    ∃ m', expand okm L prk info infoLen m = some (0, m') ∧
      ∀ o, Arg o → m' o = (run H okm L prk info infoLen m ((L + 31) / 32)).1 o := by
  obtain ⟨m', e1, e2, -⟩ := expandLoop_run hH okm L prk info infoLen m ho hp hi ((L + 31) / 32) (by omega)
  refine ⟨m', ?_, e2⟩
  rw [expand, if_neg (by omega)]
  dsimp only
  rw [if_neg (by omega), show (L + 32 - 1) / 32 = (L + 31) / 32 from rfl, e1, show min (32 * ((L + 31) / 32)) L = L by omega,
    Option.map_some]
  dsimp only
  rw [if_neg (by simp)]

theorem expand_mem (okm : Ptr) (L : ℕ) (prk info : Ptr) (infoLen : ℕ) (m : Mem) (ho : Arg okm.obj) (hp : Arg prk.obj)
    (hi : Arg info.obj) (hL : 1 ≤ L) (hL' : L ≤ 8160)
    (hd : L ≤ 32 ∨ ((prk.obj = okm.obj → Rfc.Apart okm.off L prk.off 32) ∧ (info.obj = okm.obj → Rfc.Apart okm.off L info.off infoLen))) :
    ∃ m', expand okm L prk info infoLen m = some (0, m') ∧
      ∀ o, Arg o → m' o = store m okm (Rfc.expand H (load m prk 32) (load m info infoLen) L) o := by
  obtain ⟨m', e1, e2⟩ := expand_run hH okm L prk info infoLen m ho hp hi hL hL'
  refine ⟨m', e1, fun o hoo => ?_⟩
  rw [e2 o hoo, run_apart hH okm L prk info infoLen m hd _ (by omega)]
  rfl

/-! ## `xmd_sh256` -/

/-- The loop of `xmd_sh256` for all placements: memory and `b_i` after `n` iterations. Each iteration reads the tag from the memory
that the iterations before have left. -/
def xrun (H : List UInt8 → List UInt8) (buf : Ptr) (L : ℕ) (dst : Ptr) (dstLen : ℕ) (b0 : List UInt8) (m : Mem) : ℕ → Mem × List UInt8
  | 0 => (m, List.replicate 32 0)
  | n + 1 =>
    let r := xrun H buf L dst dstLen b0 m n
    let b := H (List.zipWith (· ^^^ ·) b0 r.2 ++ [UInt8.ofNat (n + 1)] ++ (load r.1 dst dstLen ++ [UInt8.ofNat dstLen]))
    (store r.1 ⟨buf.obj, buf.off + 32 * n⟩ (b.take (min 32 (L - 32 * n))), b)

theorem xmdLoop_run (buf : Ptr) (L : ℕ) (dst : Ptr) (dstLen : ℕ) (b0 : List UInt8) (m : Mem) (hb : Arg buf.obj) (hd : Arg dst.obj)
    (hb0 : load m ⟨.b0, 0⟩ 32 = b0) (hbi : load m ⟨.bi, 0⟩ 32 = List.replicate 32 0) :
    ∀ n, (n = 0 ∨ 32 * (n - 1) < L) → ∃ m', xmdLoop buf L dst dstLen m n = some m' ∧
      (∀ o, Arg o → m' o = (xrun H buf L dst dstLen b0 m n).1 o) ∧ load m' ⟨.b0, 0⟩ 32 = b0 ∧
      load m' ⟨.bi, 0⟩ 32 = (xrun H buf L dst dstLen b0 m n).2
  | 0, _ => ⟨m, rfl, fun _ _ => rfl, hb0, hbi⟩
  | n + 1, h => by
    obtain ⟨m1, e1, e2, e3, e4⟩ := xmdLoop_run buf L dst dstLen b0 m hb hd hb0 hbi n (by omega)
    set r := xrun H buf L dst dstLen b0 m n with hr
    have hl0 : b0.length = 32 := by rw [← e3, load_length]
    have hl1 : r.2.length = 32 := by rw [← e4, load_length]
    set b := H (List.zipWith (· ^^^ ·) b0 r.2 ++ [UInt8.ofNat (n + 1)] ++ (load r.1 dst dstLen ++ [UInt8.ofNat dstLen])) with hbd
    have hrun : xrun H buf L dst dstLen b0 m (n + 1) =
        (store r.1 ⟨buf.obj, buf.off + 32 * n⟩ (b.take (min 32 (L - 32 * n))), b) := rfl
    have hz : (List.zipWith (· ^^^ ·) b0 r.2).length = 32 := by rw [List.length_zipWith, hl0, hl1]; rfl
    rw [xmdLoop, e1, Option.bind_some]
    dsimp only
    rw [e3, e4]
    have es := store_append m1 .bi 0 32 (List.zipWith (· ^^^ ·) b0 r.2) [UInt8.ofNat (n + 1)] hz.symm
    rw [Nat.zero_add] at es
    rw [es, load_store _ _ _ (32 + 1) (by rw [List.length_append, hz]; rfl), load_store_obj hd.ne.2.2.2.2,
      load_obj dstLen (e2 _ hd), Hash.hash_sha hH]
    have eb : H [List.zipWith (· ^^^ ·) b0 r.2 ++ [UInt8.ofNat (n + 1)], load r.1 dst dstLen, [UInt8.ofNat dstLen]].flatten = b := by
      rw [hbd]
      simp only [List.flatten_cons, List.flatten_nil, List.append_assoc, List.append_nil]
    rw [eb]
    have hbl : b.length = 32 := Hash.length_sha hH _
    have hcl : (32 + (if (L : ℤ) - ((n + 1 : ℕ) : ℤ) * 32 < 0 then (L : ℤ) - ((n + 1 : ℕ) : ℤ) * 32 else 0)).toNat =
        min 32 (L - 32 * n) := by
      split <;> omega
    rw [hcl, memcpy_obj hb.ne.2.2.2.2]
    set m2 := store (store m1 ⟨.bi, 0⟩ (List.zipWith (· ^^^ ·) b0 r.2 ++ [UInt8.ofNat (n + 1)])) ⟨.bi, 0⟩ b with hm2
    have f3 : load m2 ⟨.bi, 0⟩ 32 = b := load_store _ _ _ _ hbl.symm
    have hld : load m2 ⟨.bi, 0⟩ (min 32 (L - 32 * n)) = b.take (min 32 (L - 32 * n)) := by
      have := load_add m2 ⟨.bi, 0⟩ (min 32 (L - 32 * n)) (32 - min 32 (L - 32 * n))
      rw [Nat.add_sub_cancel' (by omega), f3] at this
      rw [this, List.take_left' (load_length _ _ _)]
    rw [hld, show buf.off + (n + 1 - 1) * 32 = buf.off + 32 * n by omega]
    refine ⟨_, rfl, fun o hoo => ?_, ?_, ?_⟩
    · rw [hrun]
      refine store_agree ?_
      rw [hm2, store_obj hoo.ne.2.2.2.2, store_obj hoo.ne.2.2.2.2, e2 o hoo]
    · rw [load_store_obj (Ne.symm hb.ne.2.2.2.1), load_store_obj (by decide), load_store_obj (by decide), e3]
    · rw [load_store_obj (Ne.symm hb.ne.2.2.2.2), f3, hrun]

theorem xrun_apart (buf : Ptr) (L : ℕ) (dst : Ptr) (dstLen : ℕ) (b0 : List UInt8) (m : Mem) (hb0 : b0.length = 32)
    (hd : L ≤ 32 ∨ (dst.obj = buf.obj → Rfc.Apart buf.off L dst.off dstLen)) :
    ∀ n, (n = 0 ∨ 32 * (n - 1) < L) → xrun H buf L dst dstLen b0 m n =
      (store m buf ((blocks (Rfc.xmdBlock H b0 (load m dst dstLen ++ [UInt8.ofNat dstLen])) n).take L),
        match n with | 0 => List.replicate 32 0 | k + 1 => Rfc.xmdBlock H b0 (load m dst dstLen ++ [UInt8.ofNat dstLen]) k)
  | 0, _ => by
    rw [xrun]
    dsimp only
    congr 1
    rw [show blocks _ 0 = [] from rfl, List.take_nil, store_nil]
  | n + 1, h => by
    have ih := xrun_apart buf L dst dstLen b0 m hb0 hd n (by omega)
    set d := load m dst dstLen ++ [UInt8.ofNat dstLen] with hdd
    have hTl : ∀ i, (Rfc.xmdBlock H b0 d i).length = 32 := fun i => Hash.xmdBlock_length hH _ _ i
    have hbl := Hash.blocks_length (Rfc.xmdBlock H b0 d) hTl n
    have hbt : (blocks (Rfc.xmdBlock H b0 d) n).take L = blocks (Rfc.xmdBlock H b0 d) n := List.take_of_length_le (by rw [hbl]; omega)
    have key : load (store m buf (blocks (Rfc.xmdBlock H b0 d) n)) dst dstLen = load m dst dstLen := by
      refine load_store_apart fun e i hi h1 h2 => ?_
      rw [hbl] at h2
      rcases hd with hq | hq
      · omega
      · exact hq e _ h1 (by omega) (by omega) (by omega)
    rw [xrun]
    dsimp only
    rw [ih, hbt]
    dsimp only
    rw [key, ← hdd]
    have ht : H (List.zipWith (· ^^^ ·) b0 (match n with
        | 0 => List.replicate 32 0 | k + 1 => Rfc.xmdBlock H b0 d k) ++ [UInt8.ofNat (n + 1)] ++ d) = Rfc.xmdBlock H b0 d n := by
      cases n with
      | zero =>
        have := Hash.zip_zero hH b0
        rw [hb0] at this
        simp only [this, Rfc.xmdBlock]
        simp
      | succ k => rw [Rfc.xmdBlock]
    rw [ht]
    congr 1
    have := store_append m buf.obj buf.off (32 * n) (blocks (Rfc.xmdBlock H b0 d) n) ((Rfc.xmdBlock H b0 d n).take (min 32 (L - 32 * n))) hbl.symm
    rw [show (⟨buf.obj, buf.off⟩ : Ptr) = buf from rfl] at this
    rw [this]
    have hb := Hash.blocks_take (Rfc.xmdBlock H b0 d) hTl (n := n) (L := L) (by omega)
    rw [hb]

/-- `b_0` of the caller's strings. -/
def xb0 (H : List UInt8 → List UInt8) (msg dst : List UInt8) (L : ℕ) : List UInt8 :=
  H (List.replicate 64 0 ++ msg ++ Fips.be 2 L ++ Fips.be 1 0 ++ (dst ++ Fips.be 1 dst.length))

theorem xmd_run (buf : Ptr) (L : ℕ) (inp : Ptr) (inLen : ℕ) (dst : Ptr) (dstLen : ℕ) (m : Mem) (hb : Arg buf.obj) (hi : Arg inp.obj)
    (hd : Arg dst.obj) (hL : L ≤ 8160) (hdl : dstLen ≤ 255) :
    ∃ m' m1 : Mem, xmd buf L inp inLen dst dstLen m = some (0, m') ∧ (∀ o, Arg o → m1 o = m o) ∧
      ∀ o, Arg o → m' o = (xrun H buf L dst dstLen (xb0 H (load m inp inLen) (load m dst dstLen) L) m1 ((L + 31) / 32)).1 o := by
  set b0 := xb0 H (load m inp inLen) (load m dst dstLen) L with hb0
  have hh : Sha256.hash [List.replicate 64 0, load m inp inLen, [UInt8.ofNat (L / 256), UInt8.ofNat (L % 256), 0], load m dst dstLen,
      [UInt8.ofNat dstLen]] = b0 := by
    have hl : [UInt8.ofNat (L / 256), UInt8.ofNat (L % 256), (0 : UInt8)] = Fips.be 2 L ++ Fips.be 1 0 := by
      have e2 : UInt8.ofNat (L % 256) = UInt8.ofNat L := by
        apply UInt8.toNat_inj.1; rw [UInt8.toNat_ofNat', UInt8.toNat_ofNat']; omega
      rw [e2]
      simp [Fips.be, List.range_succ]
    have hd1 : [UInt8.ofNat dstLen] = Fips.be 1 dstLen := by simp [Fips.be, List.range_succ]
    rw [hl, hd1, Hash.hash_sha hH, hb0, xb0, load_length]
    simp only [List.flatten_cons, List.flatten_nil, List.append_assoc, List.append_nil]
  set m1 := store (store m ⟨.b0, 0⟩ b0) ⟨.bi, 0⟩ (List.replicate (32 + 1) 0) with hm1
  have hl0 : b0.length = 32 := Hash.length_sha hH _
  have g0 : load m1 ⟨.b0, 0⟩ 32 = b0 := by
    rw [hm1, load_store_obj (by decide), load_store _ _ _ _ hl0.symm]
  have g1 : load m1 ⟨.bi, 0⟩ 32 = List.replicate 32 0 := by
    have e := load_store (store m ⟨.b0, 0⟩ b0) ⟨.bi, 0⟩ (List.replicate (32 + 1) 0) (32 + 1) (by rw [List.length_replicate])
    rw [load_add, List.replicate_add] at e
    exact (List.append_inj e (by rw [load_length, List.length_replicate])).1
  obtain ⟨m', e1, e2, -⟩ := xmdLoop_run hH buf L dst dstLen b0 m1 hb hd g0 g1 ((L + 31) / 32) (by omega)
  refine ⟨m', m1, ?_, fun o hoo => ?_, e2⟩
  · rw [xmd]
    dsimp only
    rw [if_neg (by omega), hh, ← hm1, show (L + 32 - 1) / 32 = (L + 31) / 32 from rfl, e1, Option.map_some]
  · rw [hm1, store_obj hoo.ne.2.2.2.2, store_obj hoo.ne.2.2.2.1]

theorem xmd_mem (buf : Ptr) (L : ℕ) (inp : Ptr) (inLen : ℕ) (dst : Ptr) (dstLen : ℕ) (m : Mem) (hb : Arg buf.obj) (hi : Arg inp.obj)
    (hd : Arg dst.obj) (hL : L ≤ 8160) (hdl : dstLen ≤ 255)
    (ha : L ≤ 32 ∨ (dst.obj = buf.obj → Rfc.Apart buf.off L dst.off dstLen)) :
    ∃ m' out, xmd buf L inp inLen dst dstLen m = some (0, m') ∧
      Rfc.expandMessageXmd H (load m inp inLen) (load m dst dstLen) L = some out ∧ ∀ o, Arg o → m' o = store m buf out o := by
  obtain ⟨m', m1, e1, f1, f2⟩ := xmd_run hH buf L inp inLen dst dstLen m hb hi hd hL hdl
  refine ⟨m', _, e1, by rw [Rfc.expandMessageXmd]; dsimp only; rw [load_length, if_neg (by omega)], fun o hoo => ?_⟩
  rw [f2 o hoo, xrun_apart hH buf L dst dstLen (xb0 H _ _ L) m1 (Hash.length_sha hH _) ha _ (by omega), load_obj dstLen (f1 _ hd)]
  refine (store_agree (f1 o hoo)).trans ?_
  rw [xb0, load_length, show [UInt8.ofNat dstLen] = Fips.be 1 dstLen by simp [Fips.be, List.range_succ]]
  rfl

omit hH in
/-- One store, in the words of the specification. -/
theorem wrote (m m' : Mem) (a : ℕ) (v : List UInt8) (h : m' .caller = store m ⟨.caller, a⟩ v .caller) :
    Rfc.Wrote (m .caller) (m' .caller) a v := by
  rw [h]
  refine ⟨load_store m ⟨.caller, a⟩ v v.length rfl, fun x hx => ?_⟩
  rw [store, if_neg]
  rintro ⟨-, h1, h2⟩
  simp only at h1 h2
  omega

end Bls.Buffers
