import Verif.Model.Keys

/-!
# What stands in the blocks of key generation when they are given back (`src/signatures.cpp:14-309`)

The text of `Model/Malloc.lean` for allocations that succeed, with the content every block has at its `free`. `none` is undefined
behaviour.
-/

namespace Bls.Freed

open Hash (writeAt)

/-- The heap as far as it matters here: the number of allocations (`src/signatures.cpp:25`, `:102`, `:103`, `:188`) so far and the
contents of the blocks given back (`:61`, `:139`, `:140`, `:234`), in order. -/
structure Mem where
  calls : Nat
  freed : List (List UInt8)

/-- `malloc(n)` (`src/signatures.cpp:25`, `:102`, `:103`, `:188`); the content of a new block is arbitrary. -/
def malloc (block : Nat → Nat → UInt8) (n : Nat) (m : Mem) : List UInt8 × Mem :=
  ((List.range n).map (block m.calls), { m with calls := m.calls + 1 })

/-- `free` (`src/signatures.cpp:61`, `:139`, `:140`, `:234`): the block keeps its content. -/
def free (p : List UInt8) (m : Mem) : Mem := { m with freed := m.freed ++ [p] }

/-- `hkdf256_hmac` (`src/signatures.cpp:14-63`). -/
def hmac (block : Nat → Nat → UInt8) («in» key : List UInt8) (m : Mem) : Option (List UInt8 × Mem) :=
  let r := malloc block (64 + «in».length) m
  let key := if key.length > 64 then Sha256.hash [key] else key
  let key := key ++ List.replicate (64 - key.length) 0
  let opad := key.map (0x5c ^^^ ·)
  (writeAt r.1 0 (key.map (0x36 ^^^ ·))).bind fun ipad =>
  (writeAt ipad 64 «in»).map fun ipad => (Sha256.hash [opad ++ Sha256.hash [ipad]], free ipad r.2)

/-- The variables of the loop of `hkdf256_expand` (`src/signatures.cpp:98-103`). -/
structure Loop where
  t : List UInt8
  written : Nat
  okm : List UInt8
  hmacInput1 : List UInt8
  hmacInput : List UInt8

/-- Iterations `1 … n` of `hkdf256_expand` (`src/signatures.cpp:111-138`); an error is the return code. -/
def expandLoop (block : Nat → Nat → UInt8) (L : Nat) (prk info : List UInt8) (s : Loop) (m : Mem) :
    Nat → Option (Except Int Loop × Mem)
  | 0 => some (.ok s, m)
  | n + 1 =>
    match expandLoop block L prk info s m n with
    | some (.ok s, m) =>
      let i := n + 1
      (if i = 1 then
        (writeAt s.hmacInput1 0 info).bind fun buf =>
        (writeAt buf info.length [UInt8.ofNat i]).bind fun buf =>
        (hmac block (buf.take (info.length + 1)) prk m).map fun r => ({ s with t := r.1, hmacInput1 := buf }, r.2)
      else
        (writeAt s.hmacInput 0 s.t).bind fun buf =>
        (writeAt buf 32 info).bind fun buf =>
        (writeAt buf (32 + info.length) [UInt8.ofNat i]).bind fun buf =>
        (hmac block (buf.take (32 + info.length + 1)) prk m).map fun r => ({ s with t := r.1, hmacInput := buf }, r.2)).bind
      fun x =>
      let s := x.1
      let toWrite := if L - s.written > 32 then 32 else L - s.written
      if toWrite ≤ 0 ∨ toWrite > 32 then some (.error (-4), x.2)
      else (writeAt s.okm s.written (s.t.take toWrite)).map fun okm =>
        (.ok { s with okm := okm, written := s.written + toWrite }, x.2)
    | r => r

/-- `hkdf256_expand` (`src/signatures.cpp:80-147`): return code and `okm`; `t` is the initial content of `T`. On the error `-4` the
content of `okm` is not followed. -/
def expand (block : Nat → Nat → UInt8) (t okm : List UInt8) (L : Nat) (prk info : List UInt8) (m : Mem) :
    Option ((Int × List UInt8) × Mem) :=
  if L > 255 * 32 then some ((-1, okm), m)
  else
    let N := (L + 32 - 1) / 32
    let r1 := malloc block (info.length + 1) m
    let r2 := malloc block (32 + info.length + 1) r1.2
    if N < 1 ∨ N > 255 then some ((-3, okm), r2.2)
    else match expandLoop block L (prk.take 32) info ⟨t, 0, okm, r1.1, r2.1⟩ r2.2 N with
      | some (.ok s, m) =>
        let m := free s.hmacInput (free s.hmacInput1 m)
        if s.written ≠ L then some ((-5, s.okm), m) else some ((0, s.okm), m)
      | some (.error c, m) => some ((c, okm), m)
      | none => none

/-- `hkdf256_extract_expand` (`src/signatures.cpp:149-164`) with `hkdf256_extract` (`src/signatures.cpp:65-78`). -/
def extractExpand (block : Nat → Nat → UInt8) (t out : List UInt8) (outLen : Nat) (key salt info : List UInt8) (m : Mem) :
    Option ((Int × List UInt8) × Mem) :=
  (hmac block key salt m).bind fun r => expand block t out outLen r.1 info r.2

/-- The loop of `secret_key` (`src/signatures.cpp:202-232`), at most `fuel` iterations; the inner `none`: still running. -/
def secretKeyLoop (block : Nat → Nat → UInt8) (t ikm : List UInt8) :
    Nat → List UInt8 → List UInt8 → Mem → Option (Option (List UInt64) × Mem)
  | 0, _, _, m => some (none, m)
  | fuel + 1, salt, okm, m =>
    (extractExpand block t okm 48 ikm salt [0, 48] m).bind fun r =>
    (Division.divnSafe (Scalar.fromBytesBE 6 r.1.2) FpC.Q).bind fun d =>
    if !Scalar.equal d.2 [0, 0, 0, 0] then some (some d.2, r.2)
    else secretKeyLoop block t ikm fuel (Sha256.hash [salt]) r.1.2 r.2

/-- `secret_key` (`src/signatures.cpp:166-237`); `junk` is the initial content of `okmHkdf`. -/
def secretKey (block : Nat → Nat → UInt8) (t junk : List UInt8) (fuel : Nat) (seed : List UInt8) (m : Mem) :
    Option (Option (List UInt64) × Mem) :=
  if seed.length < 32 then some (some [0, 0, 0, 0], m)
  else
    let r := malloc block (seed.length + 1) m
    (writeAt r.1 0 seed).bind fun ikm =>
    (writeAt ikm seed.length [0]).bind fun ikm =>
    (secretKeyLoop block t (ikm.take (seed.length + 1)) fuel Keys.salt0 junk r.2).map fun x =>
    match x.1 with
    | none => (none, x.2)
    | some sk => (some sk, free ikm x.2)

/-- `ikm_to_lamport_sk` (`src/signatures.cpp:239-250`). -/
def ikmToLamportSk (block : Nat → Nat → UInt8) (t out ikm salt : List UInt8) (m : Mem) : Option (List UInt8 × Mem) :=
  (extractExpand block t out (32 * 255) ikm salt [] m).map fun r => (r.1.2, r.2)

/-- `parent_sk_to_lamport_pk` (`src/signatures.cpp:252-297`). -/
def parentSkToLamportPk (block : Nat → Nat → UInt8) (t junk0 junk1 : List UInt8) (parentSk : List UInt64) (index : UInt32)
    (m : Mem) : Option (List UInt8 × Mem) :=
  let salt := Keys.indexBytes index
  let ikm := Scalar.toBytesBE parentSk
  let notIkm := ikm.map (· ^^^ 0xff)
  (ikmToLamportSk block t junk0 ikm salt m).bind fun r0 =>
  (ikmToLamportSk block t junk1 notIkm salt r0.2).map fun r1 =>
    (Sha256.hash [Keys.hashPieces r0.1 ++ Keys.hashPieces r1.1], r1.2)

/-- `derive_child_sk` (`src/signatures.cpp:299-309`). The vector (`src/signatures.cpp:306`) is a block that is allocated before
`secret_key` is called and given back by its destructor at the end. -/
def deriveChildSk (block : Nat → Nat → UInt8) (t junk0 junk1 junk : List UInt8) (fuel : Nat) (parentSk : List UInt64)
    (index : UInt32) (m : Mem) : Option (Option (List UInt64) × Mem) :=
  (parentSkToLamportPk block t junk0 junk1 parentSk index m).bind fun r =>
  let v := malloc block r.1.length r.2
  (writeAt v.1 0 r.1).bind fun vector =>
  (secretKey block t junk fuel vector v.2).map fun x =>
  match x.1 with
  | none => (none, x.2)
  | some sk => (some sk, free vector x.2)

end Bls.Freed
