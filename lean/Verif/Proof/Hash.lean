import Verif.Model.Hash
import Verif.Spec.Hash
import Verif.Proof.Sha256

/-! HMAC, HKDF and xmd equal their specifications. -/

namespace Bls.Hash
open Fips

theorem ofInt_nat (n : ℕ) : UInt8.ofInt (n : ℤ) = UInt8.ofNat n := by
  apply UInt8.toNat_inj.1
  rw [UInt8.ofInt, UInt8.toNat_ofNat', UInt8.toNat_ofNat']
  omega

/-- `H` is SHA-256. -/
def IsSha (H : List UInt8 → List UInt8) : Prop := ∀ m, IsSha256 m (H m)

theorem hash_sha {H : List UInt8 → List UInt8} (hH : IsSha H) (ps : List (List UInt8)) : Sha256.hash ps = H ps.flatten :=
  Sha256.isSha256_unique (Sha256.hash_isSha256 ps) (hH _)

theorem length_sha {H : List UInt8 → List UInt8} (hH : IsSha H) (m : List UInt8) : (H m).length = 32 := by
  have := hash_sha hH [m]
  rw [List.flatten_singleton] at this
  rw [← this, Sha256.hash_length]

variable {H : List UInt8 → List UInt8} (hH : IsSha H)
include hH

theorem hmac_eq (text key : List UInt8) : hmac text key = Rfc.hmac H key text := by
  unfold hmac Rfc.hmac
  simp only [hash_sha hH, List.flatten_singleton]
  have e1 : (fun x : UInt8 => 0x5c ^^^ x) = (fun x => x ^^^ 0x5c) := funext fun x => UInt8.xor_comm _ _
  have e2 : (fun x : UInt8 => 0x36 ^^^ x) = (fun x => x ^^^ 0x36) := funext fun x => UInt8.xor_comm _ _
  rw [e1, e2]

theorem hmac_length (key text : List UInt8) : (Rfc.hmac H key text).length = 32 := length_sha hH _

theorem T_length (prk info : List UInt8) (n : ℕ) : (Rfc.T H prk info (n + 1)).length = 32 := hmac_length hH _ _

omit hH in
theorem writeAt_append {a b bs : List UInt8} {off : ℕ} (ha : a.length = off) (hb : bs.length ≤ b.length) :
    writeAt (a ++ b) off bs = some (a ++ bs ++ b.drop bs.length) := by
  rw [writeAt, if_pos (by rw [List.length_append]; omega), List.take_left' ha, ← List.drop_drop, List.drop_left' ha]

/-- The first `n` blocks of length 32. -/
def blocks (f : ℕ → List UInt8) (n : ℕ) : List UInt8 := ((List.range n).map f).flatten

omit hH in
theorem blocks_succ (f : ℕ → List UInt8) (n : ℕ) : blocks f (n + 1) = blocks f n ++ f n := by
  rw [blocks, blocks, List.range_succ, List.map_append, List.flatten_append]; simp

omit hH in
theorem blocks_length (f : ℕ → List UInt8) (hf : ∀ i, (f i).length = 32) : ∀ n, (blocks f n).length = 32 * n
  | 0 => rfl
  | n + 1 => by rw [blocks_succ, List.length_append, blocks_length f hf n, hf]; ring

omit hH in
theorem blocks_take (f : ℕ → List UInt8) (hf : ∀ i, (f i).length = 32) {n L : ℕ} (h : 32 * n < L) :
    blocks f n ++ (f n).take (min 32 (L - 32 * n)) = (blocks f (n + 1)).take L := by
  rw [blocks_succ, List.take_append, List.take_of_length_le (i := L) (by rw [blocks_length f hf]; omega),
    blocks_length f hf]
  congr 1
  rw [List.take_eq_take_iff, hf]; omega

theorem expandLoop_eq (L : ℕ) (prk info okm : List UInt8) (hok : L ≤ okm.length) : ∀ n, (n = 0 ∨ 32 * (n - 1) < L) →
    expandLoop L prk info okm n = some (.ok (Rfc.T H prk info n, min (32 * n) L,
      (blocks (fun i => Rfc.T H prk info (i + 1)) n).take L ++ okm.drop (min (32 * n) L)))
  | 0, _ => by simp [expandLoop, Rfc.T, blocks]
  | n + 1, h => by
    rw [expandLoop, expandLoop_eq L prk info okm hok n (by omega)]
    dsimp only
    have hbl := blocks_length (fun i => Rfc.T H prk info (i + 1)) (fun i => T_length hH prk info i)
    have ht : (if n + 1 = 1 then hmac (info ++ [UInt8.ofNat (n + 1)]) prk
        else hmac (Rfc.T H prk info n ++ info ++ [UInt8.ofNat (n + 1)]) prk) = Rfc.T H prk info (n + 1) := by
      split
      · rename_i h0
        have : n = 0 := by omega
        subst this
        rw [hmac_eq hH, Rfc.T, Rfc.T, List.nil_append]
      · rw [hmac_eq hH, Rfc.T]
    rw [ht]
    have hm : min (32 * n) L = 32 * n := by omega
    have htw : (if L - min (32 * n) L > 32 then 32 else L - min (32 * n) L) = min 32 (L - 32 * n) := by
      rw [hm]; split <;> omega
    rw [htw, if_neg (by omega), hm, List.take_of_length_le (by rw [hbl]; omega),
      writeAt_append (hbl n) (by rw [List.length_take, T_length hH, List.length_drop]; omega)]
    have hlt : ((Rfc.T H prk info (n + 1)).take (min 32 (L - 32 * n))).length = min 32 (L - 32 * n) := by
      rw [List.length_take, T_length hH]; omega
    dsimp only
    rw [hlt, List.drop_drop]
    have e1 : 32 * n + min 32 (L - 32 * n) = min (32 * (n + 1)) L := by omega
    rw [e1]
    rw [blocks_take (fun i => Rfc.T H prk info (i + 1)) (fun i => T_length hH prk info i) (by omega)]

theorem expand_eq (okm : List UInt8) {L : ℕ} (prk info : List UInt8) (hprk : prk.length = 32) (hL : 1 ≤ L)
    (hL' : L ≤ 8160) (hok : L ≤ okm.length) :
    expand okm L prk info = some (0, Rfc.expand H prk info L ++ okm.drop L) := by
  have hN : min (32 * ((L + 32 - 1) / 32)) L = L := by omega
  rw [expand, if_neg (by omega)]
  dsimp only
  rw [if_neg (by omega), List.take_of_length_le (by omega), expandLoop_eq hH L prk info okm hok _ (by omega), hN]
  dsimp only
  rw [if_neg (by simp)]
  rfl

theorem zip_zero : ∀ b : List UInt8, List.zipWith (· ^^^ ·) b (List.replicate b.length 0) = b
  | [] => rfl
  | a :: b => by
    rw [List.length_cons, List.replicate_succ, List.zipWith_cons_cons, zip_zero b, UInt8.xor_zero]

theorem xmdBlock_length (b0 dst' : List UInt8) : ∀ n, (Rfc.xmdBlock H b0 dst' n).length = 32
  | 0 => length_sha hH _
  | _ + 1 => length_sha hH _

theorem xmdLoop_eq (L : ℕ) (b0 dst : List UInt8) (dl : UInt8) (buf : List UInt8) (hb0 : b0.length = 32)
    (hbuf : L ≤ buf.length) : ∀ n, (n = 0 ∨ 32 * (n - 1) < L) →
    xmdLoop L b0 dst dl buf n = some (match n with | 0 => List.replicate 32 0 | k + 1 => Rfc.xmdBlock H b0 (dst ++ [dl]) k,
      (blocks (Rfc.xmdBlock H b0 (dst ++ [dl])) n).take L ++ buf.drop (min (32 * n) L))
  | 0, _ => by simp [xmdLoop, blocks]
  | n + 1, h => by
    rw [xmdLoop, xmdLoop_eq L b0 dst dl buf hb0 hbuf n (by omega)]
    dsimp only
    have hbl := blocks_length (Rfc.xmdBlock H b0 (dst ++ [dl])) (fun i => xmdBlock_length hH _ _ i)
    have hx : Sha256.hash [List.zipWith (· ^^^ ·) b0 (match n with
        | 0 => List.replicate 32 0 | k + 1 => Rfc.xmdBlock H b0 (dst ++ [dl]) k) ++ [UInt8.ofNat (n + 1)], dst, [dl]] =
        Rfc.xmdBlock H b0 (dst ++ [dl]) n := by
      rw [hash_sha hH]
      cases n with
      | zero =>
        have := zip_zero hH b0
        rw [hb0] at this
        simp only [this, Rfc.xmdBlock]
        simp
      | succ k => rw [Rfc.xmdBlock]; simp only [List.flatten_cons, List.flatten_nil, List.append_assoc, List.append_nil]
    rw [hx]
    have hcl : (32 + (if (L : ℤ) - ((n + 1 : ℕ) : ℤ) * 32 < 0 then (L : ℤ) - ((n + 1 : ℕ) : ℤ) * 32 else 0)).toNat =
        min 32 (L - 32 * n) := by
      split <;> omega
    rw [hcl]
    have hm : min (32 * n) L = 32 * n := by omega
    have hlt : ((Rfc.xmdBlock H b0 (dst ++ [dl]) n).take (min 32 (L - 32 * n))).length = min 32 (L - 32 * n) := by
      rw [List.length_take, xmdBlock_length hH]; omega
    rw [hm, List.take_of_length_le (by rw [hbl]; omega),
      writeAt_append (by rw [hbl]; omega) (by rw [hlt, List.length_drop]; omega)]
    dsimp only
    rw [hlt, List.drop_drop]
    have e1 : 32 * n + min 32 (L - 32 * n) = min (32 * (n + 1)) L := by omega
    rw [e1]
    rw [blocks_take (Rfc.xmdBlock H b0 (dst ++ [dl])) (fun i => xmdBlock_length hH _ _ i) (by omega)]

omit hH in
theorem piece_eq {m : List UInt8} (h : m.length < 2 ^ 31) : piece m (toInt m.length) = some m := by
  have : toInt m.length = m.length := by
    rw [toInt, Nat.mod_eq_of_lt (by omega), if_pos (by omega)]
  rw [this, piece, if_pos (by omega), Int.toNat_natCast, List.take_length]

theorem xmd_eq (buf msg dst : List UInt8) {L : ℕ} (hmsg : msg.length < 2 ^ 31) (hdst : dst.length ≤ 255) (hL : L ≤ 8160)
    (hbuf : L ≤ buf.length) :
    ∃ out, Rfc.expandMessageXmd H msg dst L = some out ∧
      xmd buf L msg (toInt msg.length) dst (toInt dst.length) = some (0, out ++ buf.drop L) := by
  have hdl : toInt dst.length = dst.length := by
    rw [toInt, Nat.mod_eq_of_lt (by omega), if_pos (by omega)]
  have hell : ((((L : ℤ) + 31) % 2 ^ 32).toNat) / 32 = (L + 31) / 32 := by
    rw [Int.emod_eq_of_lt (by omega) (by omega)]; omega
  refine ⟨_, by rw [Rfc.expandMessageXmd]; dsimp only; rw [if_neg (by omega)], ?_⟩
  have hdp : piece dst (dst.length : ℤ) = some dst := by rw [← hdl]; exact piece_eq (by omega)
  rw [xmd]
  dsimp only
  rw [hell, hdl, if_neg (by omega), piece_eq hmsg, hdp]
  dsimp only
  have hl : [UInt8.ofInt ((L : ℤ) / 256), UInt8.ofInt ((L : ℤ) % 256), (0 : UInt8)] = be 2 L ++ be 1 0 := by
    have e1 : UInt8.ofInt ((L : ℤ) / 256) = UInt8.ofNat (L / 256) := by
      rw [show (L : ℤ) / 256 = ((L / 256 : ℕ) : ℤ) by norm_num, ofInt_nat]
    have e2 : UInt8.ofInt ((L : ℤ) % 256) = UInt8.ofNat L := by
      rw [show (L : ℤ) % 256 = ((L % 256 : ℕ) : ℤ) by norm_num, ofInt_nat]
      apply UInt8.toNat_inj.1; rw [UInt8.toNat_ofNat', UInt8.toNat_ofNat']; omega
    rw [e1, e2]
    simp [be, List.range_succ]
  have hd1 : [UInt8.ofInt (dst.length : ℤ)] = be 1 dst.length := by
    rw [ofInt_nat]; simp [be, List.range_succ]
  have hd1' : be 1 dst.length = [UInt8.ofInt (dst.length : ℤ)] := hd1.symm
  rw [hl, hash_sha hH]
  have hb0 : [List.replicate 64 0, msg, be 2 L ++ be 1 0, dst, [UInt8.ofInt (dst.length : ℤ)]].flatten =
      List.replicate 64 0 ++ msg ++ be 2 L ++ be 1 0 ++ (dst ++ be 1 dst.length) := by
    rw [hd1']; simp only [List.flatten_cons, List.flatten_nil, List.append_assoc, List.append_nil]
  rw [hb0, xmdLoop_eq hH L _ dst _ buf (length_sha hH _) hbuf _ (by omega)]
  dsimp only
  rw [hd1, show min (32 * ((L + 31) / 32)) L = L by omega]
  rfl

end Bls.Hash
