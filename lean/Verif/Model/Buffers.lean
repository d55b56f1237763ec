import Verif.Model.Hash

/-!
# The hash functions on buffers that may overlap (`src/signatures.cpp:14-164`, `:444-494`)

`Model/Hash.lean` takes the contents of the buffers as arguments. Here the same text is followed with pointers: the caller's
memory is one array of bytes, in which the buffers may overlap in any way, and each local array and each block of `malloc` is an
object of its own. `memcpy` between ranges that overlap is undefined behaviour (ISO C, 7.24.2.1) and has the outcome `none`; this
includes a copy of a range onto itself.

Simplifications: `malloc` succeeds and the blocks are not followed to `free` (see `Model/Malloc.lean`), the bounds of the objects
are not checked (see C51), lengths are natural numbers.
-/

namespace Bls.Buffers

/-- The objects: the caller's memory; `_key`, `opad`, `ipad` (`src/signatures.cpp:24-26`); `prk` (`:160`); `T`, `hmacInput1`,
`hmacInput` (`:101-103`); `b_0`, `b_i` (`:468`, `:476`). -/
inductive Obj
  | caller | key | opad | ipad | prk | t | input1 | input | b0 | bi
deriving DecidableEq

/-- A pointer to a byte, such as `buf + (i - 1) * SHA256HashSize` (`src/signatures.cpp:491`). -/
structure Ptr where
  obj : Obj
  off : Nat

/-- Content of the objects. Local arrays and blocks begin with what is there (`src/signatures.cpp:24-26`, `:101-103`, `:468`). -/
abbrev Mem := Obj → Nat → UInt8

/-- The `n` bytes at `p`, as `sha.update(p, n)` reads them (`src/signatures.cpp:37`, `:471`). -/
def load (m : Mem) (p : Ptr) (n : Nat) : List UInt8 := (List.range n).map fun i => m p.obj (p.off + i)

/-- The bytes `bs` are stored at `p`, as `sha.digest(p)` does (`src/signatures.cpp:38`, `:475`). -/
def store (m : Mem) (p : Ptr) (bs : List UInt8) : Mem := fun o a =>
  if o = p.obj ∧ p.off ≤ a ∧ a < p.off + bs.length then bs.getD (a - p.off) 0 else m o a

/-- `memcpy(d, s, n)` (`src/signatures.cpp:44`, `:53`, `:115`, `:121`, `:122`, `:136`, `:491`). -/
def memcpy (m : Mem) (d s : Ptr) (n : Nat) : Option Mem :=
  if n ≠ 0 ∧ d.obj = s.obj ∧ d.off < s.off + n ∧ s.off < d.off + n then none else some (store m d (load m s n))

/-- `hkdf256_hmac` (`src/signatures.cpp:14-63`). After the second `if` the pointer `key` is `_key`, so the loop that fills `opad`
and `ipad` (`:48-52`) reads nothing that it writes and is one load and two stores. -/
def hmac (mac «in» : Ptr) (inLen : Nat) (key : Ptr) (keyLen : Nat) (m : Mem) : Option Mem :=
  let s : Ptr × Nat × Mem :=
    if keyLen > 64 then (⟨.key, 0⟩, 32, store m ⟨.key, 0⟩ (Sha256.hash [load m key keyLen])) else (key, keyLen, m)
  let key := s.1
  let keyLen := s.2.1
  let m := s.2.2
  (if keyLen ≤ 64 then
    (memcpy m ⟨.key, 0⟩ key keyLen).map fun m => ((⟨.key, 0⟩ : Ptr), store m ⟨.key, keyLen⟩ (List.replicate (64 - keyLen) 0))
  else some (key, m)).bind fun r =>
  let key := r.1
  let m := r.2
  let k := load m key 64
  let m := store m ⟨.opad, 0⟩ (k.map (0x5c ^^^ ·))
  let m := store m ⟨.ipad, 0⟩ (k.map (0x36 ^^^ ·))
  (memcpy m ⟨.ipad, 64⟩ «in» inLen).map fun m =>
  let m := store m ⟨.opad, 64⟩ (Sha256.hash [load m ⟨.ipad, 0⟩ (64 + inLen)])
  store m mac (Sha256.hash [load m ⟨.opad, 0⟩ (64 + 32)])

/-- `hkdf256_extract` (`src/signatures.cpp:65-78`). -/
def extract (prk salt : Ptr) (saltLen : Nat) (ikm : Ptr) (ikmLen : Nat) (m : Mem) : Option Mem := hmac prk ikm ikmLen salt saltLen m

/-- Iteration `i` of `hkdf256_expand` (`src/signatures.cpp:111-138`): `bytesWritten` and the memory, or the return code `-4`. -/
def expandStep (okm : Ptr) (L : Nat) (prk info : Ptr) (infoLen i written : Nat) (m : Mem) : Option (Except Int Nat × Mem) :=
  (if i = 1 then
    (memcpy m ⟨.input1, 0⟩ info infoLen).bind fun m =>
    hmac ⟨.t, 0⟩ ⟨.input1, 0⟩ (infoLen + 1) prk 32 (store m ⟨.input1, infoLen⟩ [UInt8.ofNat i])
  else
    (memcpy m ⟨.input, 0⟩ ⟨.t, 0⟩ 32).bind fun m =>
    (memcpy m ⟨.input, 32⟩ info infoLen).bind fun m =>
    hmac ⟨.t, 0⟩ ⟨.input, 0⟩ (32 + infoLen + 1) prk 32 (store m ⟨.input, 32 + infoLen⟩ [UInt8.ofNat i])).bind fun m =>
  let toWrite := if L - written > 32 then 32 else L - written
  if toWrite ≤ 0 ∨ toWrite > 32 then some (.error (-4), m)
  else (memcpy m ⟨okm.obj, okm.off + written⟩ ⟨.t, 0⟩ toWrite).map fun m => (.ok (written + toWrite), m)

/-- Iterations `1 … n` of `hkdf256_expand` (`src/signatures.cpp:111-138`). -/
def expandLoop (okm : Ptr) (L : Nat) (prk info : Ptr) (infoLen : Nat) (m : Mem) : Nat → Option (Except Int Nat × Mem)
  | 0 => some (.ok 0, m)
  | n + 1 => (expandLoop okm L prk info infoLen m n).bind fun r =>
    match r.1 with
    | .error e => some (.error e, r.2)
    | .ok written => expandStep okm L prk info infoLen (n + 1) written r.2

/-- `hkdf256_expand` (`src/signatures.cpp:80-147`): return code and memory. -/
def expand (okm : Ptr) (L : Nat) (prk info : Ptr) (infoLen : Nat) (m : Mem) : Option (Int × Mem) :=
  if L > 255 * 32 then some (-1, m)
  else
    let N := (L + 32 - 1) / 32
    if N < 1 ∨ N > 255 then some (-3, m)
    else (expandLoop okm L prk info infoLen m N).map fun r =>
      match r.1 with
      | .error e => (e, r.2)
      | .ok written => if written ≠ L then (-5, r.2) else (0, r.2)

/-- `hkdf256_extract_expand` (`src/signatures.cpp:149-164`). `hkdf256_extract` returns 0 because `malloc` succeeds. -/
def extractExpand (output : Ptr) (outputLen : Nat) (key : Ptr) (keyLen : Nat) (salt : Ptr) (saltLen : Nat) (info : Ptr)
    (infoLen : Nat) (m : Mem) : Option (Int × Mem) :=
  (extract ⟨.prk, 0⟩ salt saltLen key keyLen m).bind fun m => expand output outputLen ⟨.prk, 0⟩ info infoLen m

/-- Iterations `1 … n` of `xmd_sh256` (`src/signatures.cpp:476-492`). `b_i` has 33 bytes. -/
def xmdLoop (buf : Ptr) (bufLen : Nat) (dst : Ptr) (dstLen : Nat) (m : Mem) : Nat → Option Mem
  | 0 => some m
  | n + 1 => (xmdLoop buf bufLen dst dstLen m n).bind fun m =>
    let i := n + 1
    let m := store m ⟨.bi, 0⟩ (List.zipWith (· ^^^ ·) (load m ⟨.b0, 0⟩ 32) (load m ⟨.bi, 0⟩ 32))
    let m := store m ⟨.bi, 32⟩ [UInt8.ofNat i]
    let m := store m ⟨.bi, 0⟩ (Sha256.hash [load m ⟨.bi, 0⟩ (32 + 1), load m dst dstLen, [UInt8.ofNat dstLen]])
    let remAfter : Int := bufLen - i * 32
    let copyLen : Int := 32 + (if remAfter < 0 then remAfter else 0)
    memcpy m ⟨buf.obj, buf.off + (i - 1) * 32⟩ ⟨.bi, 0⟩ copyLen.toNat

/-- `xmd_sh256` (`src/signatures.cpp:444-494`) for lengths that are not negative: return code and memory. The constant arrays
`Z_pad` and `l_i_b_0_str` (`:459-466`) are literal lists. -/
def xmd (buf : Ptr) (bufLen : Nat) («in» : Ptr) (inLen : Nat) (dst : Ptr) (dstLen : Nat) (m : Mem) : Option (Int × Mem) :=
  let ell := (bufLen + 32 - 1) / 32
  if ell > 255 ∨ dstLen > 255 then some (-1, m)
  else
    let l := [UInt8.ofNat (bufLen / 256), UInt8.ofNat (bufLen % 256), 0]
    let m := store m ⟨.b0, 0⟩
      (Sha256.hash [List.replicate 64 0, load m «in» inLen, l, load m dst dstLen, [UInt8.ofNat dstLen]])
    let m := store m ⟨.bi, 0⟩ (List.replicate (32 + 1) 0)
    (xmdLoop buf bufLen dst dstLen m ell).map fun m => (0, m)

end Bls.Buffers
