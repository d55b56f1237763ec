import Verif.Model.Keys

/-!
# HMAC, HKDF and key generation with the blocks of `malloc` (`src/signatures.cpp:14-309`)

`Model/Hash.lean` and `Model/Keys.lean` take `malloc` to succeed and do not follow the blocks. Here the same text is
followed with a heap: every call of `malloc` may fail, a new block has arbitrary content, stores and loads go through
the heap. `none` is undefined behaviour: a store through a null pointer or a freed block, an access past the end of a
block or an array, a second `free`. Arrays that C++ leaves uninitialised have arbitrary content too.
-/

namespace Bls.Malloc

open Hash (writeAt)

/-- The environment: which call of `malloc` succeeds, the content of its block, and the initial content of the arrays
`prk` (`src/signatures.cpp:160`), `T` (`:101`), `okmHkdf` (`:194`), `lamport0` and `lamport1` (`:261-262`), by the number of
the calls of `malloc` before. -/
structure Env where
  grants : Nat → Bool
  block : Nat → Nat → UInt8
  prk : Nat → Nat → UInt8
  t : Nat → Nat → UInt8
  okm : Nat → Nat → UInt8
  lamport0 : Nat → Nat → UInt8
  lamport1 : Nat → Nat → UInt8

/-- The heap: the number of calls of `malloc` (`src/signatures.cpp:25`, `:102`, `:103`, `:188`) so far and the blocks that have not
been freed. A block is named by the number of its call. -/
structure Heap where
  calls : Nat
  blocks : List (Nat × List UInt8)

/-- The array of length `n` with content `f` (`src/signatures.cpp:101`, `:160`, `:194`, `:261-262`). -/
def array (n : Nat) (f : Nat → UInt8) : List UInt8 := (List.range n).map f

/-- `malloc(n)` (`src/signatures.cpp:25`, `:102`, `:103`, `:188`); `none` is the null pointer. -/
def malloc (e : Env) (n : Nat) (h : Heap) : Option Nat × Heap :=
  if e.grants h.calls then (some h.calls, ⟨h.calls + 1, (h.calls, array n (e.block h.calls)) :: h.blocks⟩)
  else (none, ⟨h.calls + 1, h.blocks⟩)

/-- The content of the block at `p`, read by `sha.update` (`src/signatures.cpp:37`) or `hkdf256_hmac` (`:14-63`). -/
def load (h : Heap) (p : Option Nat) : Option (List UInt8) := p.bind fun b => h.blocks.lookup b

/-- `memcpy(p + off, bs, bs.size())` (`src/signatures.cpp:53`, `:115`, `:121`, `:122`, `:189`). -/
def store (h : Heap) (p : Option Nat) (off : Nat) (bs : List UInt8) : Option Heap :=
  p.bind fun b => (h.blocks.lookup b).bind fun buf => (writeAt buf off bs).map fun buf =>
    { h with blocks := h.blocks.map fun x => if x.1 = b then (b, buf) else x }

/-- `free(p)` (`src/signatures.cpp:61`, `:139`, `:140`, `:234`); no effect on the null pointer. -/
def free (h : Heap) : Option Nat → Option Heap
  | none => some h
  | some b => (h.blocks.lookup b).map fun _ => { h with blocks := h.blocks.filter fun x => x.1 ≠ b }

/-- `hkdf256_hmac` (`src/signatures.cpp:14-63`): return code and `mac`. -/
def hmac (e : Env) (mac «in» key : List UInt8) (h : Heap) : Option ((Int × List UInt8) × Heap) :=
  let r := malloc e (64 + «in».length) h
  let ipad := r.1
  let h := r.2
  if ipad = none then some ((-1, mac), h)
  else
    let key := if key.length > 64 then Sha256.hash [key] else key
    let key := key ++ List.replicate (64 - key.length) 0
    let opad := key.map (0x5c ^^^ ·)
    (store h ipad 0 (key.map (0x36 ^^^ ·))).bind fun h =>
    (store h ipad 64 «in»).bind fun h =>
    (load h ipad).bind fun buf =>
    let inner := Sha256.hash [buf]
    (writeAt mac 0 (Sha256.hash [opad ++ inner])).bind fun mac =>
    (free h ipad).map fun h => ((0, mac), h)

/-- `hkdf256_extract` (`src/signatures.cpp:65-78`). -/
def extract (e : Env) (prk salt ikm : List UInt8) (h : Heap) : Option ((Int × List UInt8) × Heap) := hmac e prk ikm salt h

/-- The variables of the loop of `hkdf256_expand` (`src/signatures.cpp:98-103`). -/
structure ExpandState where
  t : List UInt8
  written : Nat
  okm : List UInt8

/-- Iteration `i` of `hkdf256_expand` (`src/signatures.cpp:111-138`); an error is the return code `-4`. The return code
of `hkdf256_hmac` is ignored as in the source. -/
def expandStep (e : Env) (L : Nat) (prk info : List UInt8) (p1 p2 : Option Nat) (i : Nat) (s : ExpandState) (h : Heap) :
    Option (Except Int ExpandState × Heap) :=
  (if i = 1 then
    (store h p1 0 info).bind fun h =>
    (store h p1 info.length [UInt8.ofNat i]).bind fun h =>
    (load h p1).bind fun buf => hmac e s.t (buf.take (info.length + 1)) prk h
  else
    (store h p2 0 s.t).bind fun h =>
    (store h p2 32 info).bind fun h =>
    (store h p2 (32 + info.length) [UInt8.ofNat i]).bind fun h =>
    (load h p2).bind fun buf => hmac e s.t (buf.take (32 + info.length + 1)) prk h).bind fun r =>
  let t := r.1.2
  let h := r.2
  let toWrite := if L - s.written > 32 then 32 else L - s.written
  if toWrite ≤ 0 ∨ toWrite > 32 then some (.error (-4), h)
  else (writeAt s.okm s.written (t.take toWrite)).map fun okm => (.ok ⟨t, s.written + toWrite, okm⟩, h)

/-- `r` iterations from `i` on (`src/signatures.cpp:111-138`). -/
def expandLoop (e : Env) (L : Nat) (prk info : List UInt8) (p1 p2 : Option Nat) :
    Nat → Nat → ExpandState → Heap → Option (Except Int ExpandState × Heap)
  | 0, _, s, h => some (.ok s, h)
  | r + 1, i, s, h =>
    (expandStep e L prk info p1 p2 i s h).bind fun x =>
    match x.1 with
    | .error c => some (.error c, x.2)
    | .ok s => expandLoop e L prk info p1 p2 r (i + 1) s x.2

/-- `hkdf256_expand` (`src/signatures.cpp:80-147`): return code and `okm`. On the error `-4` the content of `okm` is not
followed. -/
def expand (e : Env) (okm : List UInt8) (L : Nat) (prk info : List UInt8) (h : Heap) :
    Option ((Int × List UInt8) × Heap) :=
  if L > 255 * 32 then some ((-1, okm), h)
  else
    let N := (L + 32 - 1) / 32
    let t := array 32 (e.t h.calls)
    let r := malloc e (info.length + 1) h
    let p1 := r.1
    let r := malloc e (32 + info.length + 1) r.2
    let p2 := r.1
    let h := r.2
    if N < 1 ∨ N > 255 then some ((-3, okm), h)
    else
      (expandLoop e L (prk.take 32) info p1 p2 N 1 ⟨t, 0, okm⟩ h).bind fun x =>
      match x.1 with
      | .error c => some ((c, okm), x.2)
      | .ok s =>
        (free x.2 p1).bind fun h =>
        (free h p2).map fun h => if s.written ≠ L then ((-5, s.okm), h) else ((0, s.okm), h)

/-- `hkdf256_extract_expand` (`src/signatures.cpp:149-164`). -/
def extractExpand (e : Env) (out : List UInt8) (outLen : Nat) (key salt info : List UInt8) (h : Heap) :
    Option ((Int × List UInt8) × Heap) :=
  (extract e (array 32 (e.prk h.calls)) salt key h).bind fun r =>
  if r.1.1 ≠ 0 then some ((r.1.1, out), r.2)
  else expand e out outLen r.1.2 info r.2

/-- The loop of `secret_key` (`src/signatures.cpp:202-232`), at most `fuel` iterations; the inner `none`: still running.
The return code of `hkdf256_extract_expand` is ignored as in the source. -/
def secretKeyLoop (e : Env) (ikm : Option Nat) (len : Nat) :
    Nat → List UInt8 → List UInt8 → Heap → Option (Option (List UInt64) × Heap)
  | 0, _, _, h => some (none, h)
  | fuel + 1, salt, okm, h =>
    (load h ikm).bind fun buf =>
    (extractExpand e okm 48 (buf.take len) salt [0, 48] h).bind fun r =>
    let okm := r.1.2
    (Division.divnSafe (Scalar.fromBytesBE 6 okm) FpC.Q).bind fun d =>
    if !Scalar.equal d.2 [0, 0, 0, 0] then some (some d.2, r.2)
    else secretKeyLoop e ikm len fuel (Sha256.hash [salt]) okm r.2

/-- `secret_key` (`src/signatures.cpp:166-237`). -/
def secretKey (e : Env) (fuel : Nat) (seed : List UInt8) (h : Heap) : Option (Option (List UInt64) × Heap) :=
  if seed.length < 32 then some (some [0, 0, 0, 0], h)
  else
    let r := malloc e (seed.length + 1) h
    let ikm := r.1
    (store r.2 ikm 0 seed).bind fun h =>
    (store h ikm seed.length [0]).bind fun h =>
    (secretKeyLoop e ikm (seed.length + 1) fuel Keys.salt0 (array 48 (e.okm h.calls)) h).bind fun x =>
    match x.1 with
    | none => some (none, x.2)
    | some sk => (free x.2 ikm).map fun h => (some sk, h)

/-- `ikm_to_lamport_sk` (`src/signatures.cpp:239-250`). -/
def ikmToLamportSk (e : Env) (out ikm salt : List UInt8) (h : Heap) : Option (List UInt8 × Heap) :=
  (extractExpand e out (32 * 255) ikm salt [] h).map fun r => (r.1.2, r.2)

/-- `parent_sk_to_lamport_pk` (`src/signatures.cpp:252-297`). -/
def parentSkToLamportPk (e : Env) (parentSk : List UInt64) (index : UInt32) (h : Heap) : Option (List UInt8 × Heap) :=
  let salt := Keys.indexBytes index
  let ikm := Scalar.toBytesBE parentSk
  let notIkm := ikm.map (· ^^^ 0xff)
  (ikmToLamportSk e (array (32 * 255) (e.lamport0 h.calls)) ikm salt h).bind fun r0 =>
  (ikmToLamportSk e (array (32 * 255) (e.lamport1 h.calls)) notIkm salt r0.2).map fun r1 =>
    (Sha256.hash [Keys.hashPieces r0.1 ++ Keys.hashPieces r1.1], r1.2)

/-- `derive_child_sk` (`src/signatures.cpp:299-309`). The vector made of the 32 bytes is the list itself. -/
def deriveChildSk (e : Env) (fuel : Nat) (parentSk : List UInt64) (index : UInt32) (h : Heap) :
    Option (Option (List UInt64) × Heap) :=
  (parentSkToLamportPk e parentSk index h).bind fun r => secretKey e fuel r.1 r.2

end Bls.Malloc
