import Verif.Model.Hex
import Verif.Model.Keys
import Verif.Model.WeightedSum

/-!
# The functions that depend on the platform

The other models are for a `size_t` of 64 bits and a signed `char`, and their lengths do not overflow. The library is also
built for WebAssembly (`README.md:10`), where `size_t` has 32 bits, and for processors with an unsigned `char`. Here the text of
the functions that use either is followed with `size_t` of `w` bits, whose sums are taken modulo `2^w`, and with a `char` of
either kind. `none` is undefined behaviour. `malloc` is taken to succeed; `block` is the content of a new block.
-/

namespace Bls.Platform

open Hash (writeAt)

/-- The value of a `char` (`src/scalar.cpp:27`, `include/bls12-381/scalar.hpp:392`). -/
def charVal (signed : Bool) (c : UInt8) : Int := if signed then c.toInt8.toInt else c.toNat

/-- `(s[j] % 32 + 9) % 25` (`src/scalar.cpp:27`, `include/bls12-381/scalar.hpp:392`). -/
def nibble (signed : Bool) (c : UInt8) : Int := ((charVal signed c).tmod 32 + 9).tmod 25

/-- One byte (`src/scalar.cpp:27`, `include/bls12-381/scalar.hpp:392`). -/
def hexByte (signed : Bool) (a b : UInt8) : UInt8 := UInt8.ofInt (nibble signed a * 16 + nibble signed b)

/-- `r` iterations of the loop of `hexToBytes` from position `j` on, a `size_t` (`src/scalar.cpp:25-28`). -/
def hexLoop (signed : Bool) (w : Nat) (s : List UInt8) : Nat → Nat → Option (List UInt8)
  | 0, _ => some []
  | r + 1, j =>
    match s[j]?, s[(j + 1) % 2 ^ w]? with
    | some a, some b => (hexLoop signed w s r ((j + 2) % 2 ^ w)).map (hexByte signed a b :: ·)
    | _, _ => none

/-- `hexToBytes(std::string_view)` (`src/scalar.cpp:8-31`). -/
def hexToBytes (signed : Bool) (w : Nat) (s : List UInt8) : Option (List UInt8) :=
  (s[0]?).bind fun c =>
  (if c = 48 then (s[1]?).map fun d => if d = 120 then 2 else 0 else some 0).bind fun start =>
  if s.length % 2 ≠ 0 then some [] else hexLoop signed w s ((s.length - start) / 2) start

/-- The loop of the template `hexToBytes<N>` (`include/bls12-381/scalar.hpp:390-393`) on the characters from position `j`. -/
def hexLoopN (signed : Bool) : Nat → List UInt8 → Option (List UInt8)
  | 0, _ => some []
  | n + 1, a :: b :: s => (hexLoopN signed n s).map (hexByte signed a b :: ·)
  | _ + 1, _ => none

/-- `hexToBytes<N>(const std::string&)` (`include/bls12-381/scalar.hpp:380-401`). The string has less than `2^w` characters and
its terminating zero can be read, so `j` does not overflow before the end of the string. -/
def hexToBytesN (signed : Bool) (n : Nat) (s : List UInt8) : Option (List UInt8) :=
  match s ++ [0] with
  | c :: d :: t => hexLoopN signed n (if c = 48 ∧ d = 120 then t else c :: d :: t)
  | t => hexLoopN signed n t

/-- `s[i] = c` on a `std::string` (`src/scalar.cpp:37-38`, `:41-42`). -/
def put (s : List UInt8) (i : Nat) (c : UInt8) : Option (List UInt8) := if i < s.length then some (s.set i c) else none

/-- The loop of `bytesToHex` from byte `i` on (`src/scalar.cpp:39-43`). The index is computed with 64 bits and converted to
`size_t`. -/
def hexStore (w : Nat) : List UInt8 → Nat → List UInt8 → Option (List UInt8)
  | [], _, s => some s
  | b :: bs, i, s =>
    (put s ((2 + 2 * i) % 2 ^ w) (hexmap.getD ((b &&& 0xF0) >>> 4).toNat 0)).bind fun s =>
    (put s ((2 + 2 * i + 1) % 2 ^ w) (hexmap.getD (b &&& 0x0F).toNat 0)).bind fun s =>
    hexStore w bs (i + 1) s

/-- `bytesToHex` (`src/scalar.cpp:33-45`). The constructor of the string throws `std::length_error` above `max` characters. -/
def bytesToHex (w max : Nat) (bs : List UInt8) : Option (Except Unit (List UInt8)) :=
  let size := (2 + bs.length * 2 % 2 ^ w) % 2 ^ w
  if max < size then some (.error ())
  else
    (put (List.replicate size 32) 0 48).bind fun s =>
    (put s 1 120).bind fun s =>
    (hexStore w bs 0 s).map .ok

/-- `malloc(n)` (`src/signatures.cpp:25`, `:102`, `:103`, `:188`), `n` converted to `size_t`. -/
def malloc (w : Nat) (block : Nat → UInt8) (n : Nat) : List UInt8 := (List.range (n % 2 ^ w)).map block

/-- `hkdf256_hmac` (`src/signatures.cpp:14-63`). The length is a `uint64_t`; `malloc` and `update` convert it to `size_t`. -/
def hmac (w : Nat) (block : Nat → UInt8) («in» key : List UInt8) : Option (List UInt8) :=
  let len := (64 + «in».length) % 2 ^ 64
  let key := if key.length > 64 then Sha256.hash [key] else key
  let key := key ++ List.replicate (64 - key.length) 0
  (writeAt (malloc w block len) 0 (key.map (0x36 ^^^ ·))).bind fun ipad =>
  (writeAt ipad 64 «in»).map fun ipad =>
  Sha256.hash [key.map (0x5c ^^^ ·) ++ Sha256.hash [ipad.take (len % 2 ^ w)]]

/-- Iterations `1 … n` of `hkdf256_expand` (`src/signatures.cpp:111-138`). The two blocks are written from the beginning in
every iteration and are new ones here. -/
def expandLoop (w : Nat) (block : Nat → UInt8) (L : Nat) (prk info okm : List UInt8) : Nat → Option Hash.ExpandState
  | 0 => some (.ok ([], 0, okm))
  | n + 1 =>
    match expandLoop w block L prk info okm n with
    | some (.ok (t, written, okm)) =>
      let i := n + 1
      (if i = 1 then
        (writeAt (malloc w block ((info.length + 1) % 2 ^ w)) 0 info).bind fun buf =>
        (writeAt buf info.length [UInt8.ofNat i]).bind fun buf =>
        hmac w block (buf.take ((info.length + 1) % 2 ^ w)) prk
      else
        (writeAt (malloc w block ((32 + info.length + 1) % 2 ^ w)) 0 t).bind fun buf =>
        (writeAt buf 32 info).bind fun buf =>
        (writeAt buf ((32 + info.length) % 2 ^ w) [UInt8.ofNat i]).bind fun buf =>
        hmac w block (buf.take ((32 + info.length + 1) % 2 ^ w)) prk).bind fun t =>
      let toWrite := (L + 2 ^ w - written) % 2 ^ w
      let toWrite := if toWrite > 32 then 32 else toWrite
      if toWrite ≤ 0 ∨ toWrite > 32 then some (.error (-4))
      else (writeAt okm written (t.take toWrite)).map fun okm => .ok (t, (written + toWrite) % 2 ^ w, okm)
    | r => r

/-- `hkdf256_expand` (`src/signatures.cpp:80-147`): return code and `okm`. -/
def expand (w : Nat) (block : Nat → UInt8) (okm : List UInt8) (L : Nat) (prk info : List UInt8) : Option (Int × List UInt8) :=
  if L > 255 * 32 then some (-1, okm)
  else
    let N := (L + 32 - 1) % 2 ^ w / 32
    if N < 1 ∨ N > 255 then some (-3, okm)
    else match expandLoop w block L (prk.take 32) info okm N with
      | some (.ok (_, written, okm)) => if written ≠ L then some (-5, okm) else some (0, okm)
      | some (.error e) => some (e, okm)
      | none => none

/-- `hkdf256_extract_expand` (`src/signatures.cpp:149-164`) with `hkdf256_extract` (`src/signatures.cpp:65-78`). -/
def extractExpand (w : Nat) (block : Nat → UInt8) (out : List UInt8) (outLen : Nat) (key salt info : List UInt8) :
    Option (Int × List UInt8) :=
  (hmac w block key salt).bind fun prk => expand w block out outLen prk info

/-- The loop of `secret_key` (`src/signatures.cpp:202-232`), at most `fuel` iterations. -/
def secretKeyLoop (w : Nat) (block : Nat → UInt8) (ikm : List UInt8) :
    Nat → List UInt8 → List UInt8 → Option (Option (List UInt64))
  | 0, _, _ => some none
  | fuel + 1, salt, okm =>
    (extractExpand w block okm 48 ikm salt [0, 48]).bind fun r =>
    (Division.divnSafe (Scalar.fromBytesBE 6 r.2) FpC.Q).bind fun d =>
    if !Scalar.equal d.2 [0, 0, 0, 0] then some (some d.2)
    else secretKeyLoop w block ikm fuel (Sha256.hash [salt]) r.2

/-- `secret_key` (`src/signatures.cpp:166-237`). -/
def secretKey (w : Nat) (block : Nat → UInt8) (junk : List UInt8) (fuel : Nat) (seed : List UInt8) :
    Option (Option (List UInt64)) :=
  if seed.length < 32 then some (some [0, 0, 0, 0])
  else
    (writeAt (malloc w block ((seed.length + 1) % 2 ^ w)) 0 seed).bind fun ikm =>
    (writeAt ikm seed.length [0]).bind fun ikm =>
    secretKeyLoop w block (ikm.take ((seed.length + 1) % 2 ^ w)) fuel Keys.salt0 junk

/-- `ikm_to_lamport_sk` (`src/signatures.cpp:239-250`). -/
def ikmToLamportSk (w : Nat) (block : Nat → UInt8) (out ikm salt : List UInt8) : Option (List UInt8) :=
  (extractExpand w block out (32 * 255) ikm salt []).map (·.2)

/-- `parent_sk_to_lamport_pk` (`src/signatures.cpp:252-297`). -/
def parentSkToLamportPk (w : Nat) (block : Nat → UInt8) (junk0 junk1 : List UInt8) (parentSk : List UInt64)
    (index : UInt32) : Option (List UInt8) :=
  let salt := Keys.indexBytes index
  let ikm := Scalar.toBytesBE parentSk
  let notIkm := ikm.map (· ^^^ 0xff)
  (ikmToLamportSk w block junk0 ikm salt).bind fun lamport0 =>
  (ikmToLamportSk w block junk1 notIkm salt).map fun lamport1 =>
  Sha256.hash [Keys.hashPieces lamport0 ++ Keys.hashPieces lamport1]

/-- `derive_child_sk` (`src/signatures.cpp:299-309`). -/
def deriveChildSk (w : Nat) (block : Nat → UInt8) (junk0 junk1 junk : List UInt8) (fuel : Nat) (parentSk : List UInt64)
    (index : UInt32) : Option (Option (List UInt64)) :=
  (parentSkToLamportPk w block junk0 junk1 parentSk index).bind fun pk => secretKey w block junk fuel pk

/-- `std::countl_zero` on `size_t` (`src/g.cpp:478`, `:1242`). -/
def countlZero (w n : Nat) : Nat := if n = 0 then w else w - 1 - n.log2

/-- The window width of `weightedSum` (`src/g.cpp:475-479`, `src/g.cpp:1239-1243`); `numeric_limits<size_t>::digits` is `w`. -/
def windowBits (w n : Nat) : Nat := if n ≥ 32 then (w - countlZero w n) / 3 + 2 else 3

/-- `g1::weightedSum` (`src/g.cpp:472-531`), `g2::weightedSum` (`src/g.cpp:1236-1295`). `1<<c` is a shift of an `int`
(`src/g.cpp:480`, `:1244`), undefined from 32 on. -/
def weightedSumRun {F : Type} [Ops F] {σ ε : Type} (w : Nat) (points : List (Jac F)) (scalars : List (List UInt64))
    (yield : Jac.Yield σ ε) (s : σ) : Except (Jac.Stop ε) (Jac F × σ) := do
  let size := min scalars.length points.length
  let c := windowBits w size
  if 32 ≤ c then .error .undefined
  else
    let bucket := List.replicate (2 ^ c - 1) ⟨Ops.zero, Ops.zero, Ops.zero⟩
    let (windows, s) ← Jac.windowLoop yield points scalars size c (255 / c + 1) 0 bucket [] s
    let acc ← Jac.combineLoop c windows windows.length Jac.zero
    .ok (acc, s)

end Bls.Platform
