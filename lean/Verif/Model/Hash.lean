import Verif.Model.Sha256

/-!
# HMAC, HKDF and `xmd_sh256` (`src/signatures.cpp:14-164`, `444-494`)

Buffers are byte lists; `none` is undefined behaviour (access past the end of a buffer, a negative length converted to
`size_t`). `malloc` is taken to succeed.
-/

namespace Bls.Hash

/-- `memcpy(buf + off, bs, bs.size())` (`src/signatures.cpp:136`, `:491`); `none` when it writes past the end. -/
def writeAt (buf : List UInt8) (off : Nat) (bs : List UInt8) : Option (List UInt8) :=
  if off + bs.length ≤ buf.length then some (buf.take off ++ bs ++ buf.drop (off + bs.length)) else none

/-- `hkdf256_hmac` (`src/signatures.cpp:14-63`). For keys above 64 bytes `memcpy(_key, _key, 32)` copies a buffer onto
itself, modelled as no effect. -/
def hmac («in» key : List UInt8) : List UInt8 :=
  let key := if key.length > 64 then Sha256.hash [key] else key
  let key := key ++ List.replicate (64 - key.length) 0
  let opad := key.map (0x5c ^^^ ·)
  let ipad := key.map (0x36 ^^^ ·)
  Sha256.hash [opad ++ Sha256.hash [ipad ++ «in»]]

/-- `hkdf256_extract` (`src/signatures.cpp:65-78`). -/
def extract (salt ikm : List UInt8) : List UInt8 := hmac ikm salt

/-- State of the loop of `hkdf256_expand` (`src/signatures.cpp:98-103`): `T`, `bytesWritten`, `okm`; or the error code. -/
abbrev ExpandState := Except Int (List UInt8 × Nat × List UInt8)

/-- Iterations `1 … n` of `hkdf256_expand` (`src/signatures.cpp:111-138`). -/
def expandLoop (L : Nat) (prk info okm : List UInt8) : Nat → Option ExpandState
  | 0 => some (.ok ([], 0, okm))
  | n + 1 =>
    match expandLoop L prk info okm n with
    | some (.ok (t, written, okm)) =>
      let i := n + 1
      let t := if i = 1 then hmac (info ++ [UInt8.ofNat i]) prk else hmac (t ++ info ++ [UInt8.ofNat i]) prk
      let toWrite := if L - written > 32 then 32 else L - written
      if toWrite ≤ 0 ∨ toWrite > 32 then some (.error (-4))
      else match writeAt okm written (t.take toWrite) with
        | some okm => some (.ok (t, written + toWrite, okm))
        | none => none
    | r => r

/-- `hkdf256_expand` (`src/signatures.cpp:80-147`): return code and `okm`. `prk` points to 32 bytes. -/
def expand (okm : List UInt8) (L : Nat) (prk info : List UInt8) : Option (Int × List UInt8) :=
  if L > 255 * 32 then some (-1, okm)
  else
    let N := (L + 32 - 1) / 32
    if N < 1 ∨ N > 255 then some (-3, okm)
    else match expandLoop L (prk.take 32) info okm N with
      | some (.ok (_, written, okm)) => if written ≠ L then some (-5, okm) else some (0, okm)
      | some (.error e) => some (e, okm)
      | none => none

/-- `hkdf256_extract_expand` (`src/signatures.cpp:149-164`). -/
def extractExpand (out : List UInt8) (outLen : Nat) (key salt info : List UInt8) : Option (Int × List UInt8) :=
  expand out outLen (extract salt key) info

/-- Conversion of a `size_t` to `int`: the arguments `msg.size()` and `dst.length()` of `xmd_sh256` (`src/signatures.cpp:503`). -/
def toInt (n : Nat) : Int := if n % 2 ^ 32 < 2 ^ 31 then (n % 2 ^ 32 : Nat) else (n % 2 ^ 32 : Nat) - 2 ^ 32

/-- `sha.update(p, len)` with an `int` length (`src/signatures.cpp:471`, `:473`): the bytes read. -/
def piece (p : List UInt8) (len : Int) : Option (List UInt8) :=
  if 0 ≤ len ∧ len ≤ p.length then some (p.take len.toNat) else none

/-- Iterations `1 … n` of `xmd_sh256` (`src/signatures.cpp:476-492`): `b_i` and `buf`. -/
def xmdLoop (bufLen : Int) (b0 dst : List UInt8) (dstlen : UInt8) (buf : List UInt8) :
    Nat → Option (List UInt8 × List UInt8)
  | 0 => some (List.replicate 32 0, buf)
  | n + 1 =>
    match xmdLoop bufLen b0 dst dstlen buf n with
    | some (bi, buf) =>
      let i := n + 1
      let x := List.zipWith (· ^^^ ·) b0 bi ++ [UInt8.ofNat i]
      let bi := Sha256.hash [x, dst, [dstlen]]
      let remAfter : Int := bufLen - i * 32
      let copyLen : Int := 32 + (if remAfter < 0 then remAfter else 0)
      match writeAt buf ((i - 1) * 32) (bi.take copyLen.toNat) with
      | some buf => some (bi, buf)
      | none => none
    | none => none

/-- `xmd_sh256` (`src/signatures.cpp:444-494`): return code and `buf`. -/
def xmd (buf : List UInt8) (bufLen : Int) («in» : List UInt8) (inLen : Int) (dst : List UInt8) (dstLen : Int) :
    Option (Int × List UInt8) :=
  let ell := ((bufLen + 31) % 2 ^ 32).toNat / 32
  if bufLen < 0 ∨ ell > 255 ∨ dstLen > 255 then some (-1, buf)
  else
    match piece «in» inLen, piece dst dstLen with
    | some msg, some tag =>
      let l := [UInt8.ofInt (bufLen / 256), UInt8.ofInt (bufLen % 256), 0]
      let dstlen := UInt8.ofInt dstLen
      let b0 := Sha256.hash [List.replicate 64 0, msg, l, tag, [dstlen]]
      match xmdLoop bufLen b0 tag dstlen buf ell with
      | some (_, buf) => some (0, buf)
      | none => none
    | _, _ => none

end Bls.Hash
