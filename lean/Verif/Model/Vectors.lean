import Verif.Model.CallbackSteps
import Verif.Model.Signatures

/-!
# Memory of vectors

`weightedSum`, `calculate`, `add_pair` and the verification functions keep points in `std::vector` and messages in `std::set`.
The other models take the memory for them to be there. Here every request to `operator new` may be refused, which throws
`std::bad_alloc`; the blocks are followed, and the destructors of local variables return them on every way out.

A block is a number (that of the request) and its size in bytes. Sizes of objects: `fp` 48, `g1` 144, `g2` 288 bytes, a pair 432 bytes,
the coefficients of a pair `68 * 3 * 96 = 19584` bytes.

Simplifications: moving the elements of a vector that grows is not followed; `windows.push_back` (`src/g.cpp:518`, `src/g.cpp:1282`) is
executed as often as reserved and so requests nothing.
-/

namespace Bls.Vectors

/-- How a call ends without a result (`src/g.cpp:472-531`, `src/pairing.cpp:96-200`):
`std::bad_alloc`, `std::length_error`, an exception of the callback, undefined behaviour. -/
inductive Exc (ε : Type)
  | badAlloc
  | lengthError
  | thrown (e : ε)
  | undefined

/-- The outcome of a run without requests for memory (`src/g.cpp:472`, `src/pairing.cpp:180`), with the exceptions of `Exc`. -/
def lift {ε α : Type} : Except (Jac.Stop ε) α → Except (Exc ε) α
  | .ok a => .ok a
  | .error .undefined => .error .undefined
  | .error (.thrown e) => .error (.thrown e)

/-- The environment: whether the request with this number and size is granted; the capacity that a full vector of this capacity
grows to (`src/pairing.cpp:196`); the size of a node of a `std::set<vector<uint8_t>>` (`src/signatures.cpp:605`); what a copy of the
callback requests (`src/pairing.cpp:188`), 0 for small ones. -/
structure Env where
  grants : Nat → Nat → Bool
  grow : Nat → Nat
  node : Nat
  callback : Nat

/-- The number of requests (`src/g.cpp:483-485`, `src/pairing.cpp:99`, `:196`) so far and the blocks in use. -/
structure Heap where
  calls : Nat
  blocks : List (Nat × Nat)

/-- `operator new(n)`, called by `reserve`, `resize`, `emplace_back` and `insert` (`src/g.cpp:483-485`, `src/pairing.cpp:99`, `:196`,
`src/signatures.cpp:608`). -/
def new {ε : Type} (e : Env) (n : Nat) (h : Heap) : Except (Exc ε) (Nat × Nat) × Heap :=
  if e.grants h.calls n then (.ok (h.calls, n), ⟨h.calls + 1, (h.calls, n) :: h.blocks⟩)
  else (.error .badAlloc, ⟨h.calls + 1, h.blocks⟩)

/-- `operator delete` for each of these blocks, called by the destructors (`src/g.cpp:531`, `src/pairing.cpp:137`,
`src/signatures.cpp:560`, `:615`, `:628`). -/
def delete (bs : List (Nat × Nat)) (h : Heap) : Heap :=
  bs.foldl (fun h b => { h with blocks := h.blocks.filter fun x => x.1 ≠ b.1 }) h

/-- Memory for a new vector of `n` elements of `size` bytes (`src/g.cpp:483`, `:485`, `src/pairing.cpp:99`, `src/signatures.cpp:608`,
`:634`, `:644`): none for `n = 0`; `std::length_error` for more than `2^63 - 1` bytes. -/
def allocate {ε : Type} (e : Env) (size n : Nat) (h : Heap) : Except (Exc ε) (List (Nat × Nat)) × Heap :=
  if n = 0 then (.ok [], h)
  else if 2 ^ 63 - 1 < size * n then (.error .lengthError, h)
  else
    match new e (size * n) h with
    | (.ok b, h) => (.ok [b], h)
    | (.error x, h) => (.error x, h)

section
variable {F : Type} [Ops F] {σ ε : Type}

/-- `g1::weightedSum` (`src/g.cpp:472-531`) with `size = 144`, `g2::weightedSum` (`src/g.cpp:1236-1295`) with `size = 288`. -/
def weightedSum (e : Env) (size : Nat) (points : List (Jac F)) (scalars : List (List UInt64)) (yield : Jac.Yield σ ε) (s : σ) (h : Heap) :
    Except (Exc ε) (Jac F × σ) × Heap :=
  let c := Jac.windowBits (min scalars.length points.length)
  match allocate e size (255 / c + 1) h with
  | (.error x, h) => (.error x, h)
  | (.ok windows, h) =>
    match allocate e size (2 ^ c - 1) h with
    | (.error x, h) => (.error x, delete windows h)
    | (.ok bucket, h) => (lift (Jac.weightedSumRun points scalars yield s), delete windows (delete bucket h))

end

section
variable {K : Type} [FpOps K] {σ ε : Type}

/-- `calculate` (`src/pairing.cpp:180-190`): `miller_loop` (`:96-137`) gets a copy of the callback and makes the vector of the
coefficients. -/
def calculate (e : Env) (pairs : List (G1 K × G2 K)) (yield : Jac.Yield σ ε) (s : σ) (h : Heap) :
    Except (Exc ε) (Fp12 K × σ) × Heap :=
  if pairs.isEmpty then (.ok (Fp12.one, s), h)
  else
    match allocate e (if yield.isSome then e.callback else 0) (if yield.isSome ∧ e.callback ≠ 0 then 1 else 0) h with
    | (.error x, h) => (.error x, h)
    | (.ok copy, h) =>
      match allocate e 19584 pairs.length h with
      | (.error x, h) => (.error x, delete copy h)
      | (.ok coeffs, h) => (lift (Pairing.calculateRun pairs yield s), delete copy (delete coeffs h))

/-- A `vector<tuple<g1, g2>>` (`src/pairing.cpp:192`, `src/signatures.cpp:544`, `:589`, `:655`): its block, capacity and elements. -/
structure Vec (K : Type) where
  block : List (Nat × Nat)
  cap : Nat
  data : List (G1 K × G2 K)

/-- `add_pair` (`src/pairing.cpp:192-198`). If it throws, the vector is as before. -/
def addPair (e : Env) (v : Vec K) (e1 : G1 K) (e2 : G2 K) (h : Heap) : Except (Exc ε) (Vec K) × Heap :=
  if !(e1.isZero || e2.isZero) then
    if v.data.length < v.cap then (.ok { v with data := v.data ++ [(e1.affine, e2.affine)] }, h)
    else
      match allocate e 432 (e.grow v.cap) h with
      | (.error x, h) => (.error x, h)
      | (.ok b, h) => (.ok ⟨b, e.grow v.cap, v.data ++ [(e1.affine, e2.affine)]⟩, delete v.block h)
  else (.ok v, h)

/-- `return fp12::one().equal(pairing::calculate(v));` at the end of a function with the local vector `v` (`src/signatures.cpp:559`,
`:627`, `:660`). -/
def finish (e : Env) (v : Vec K) (h : Heap) : Except (Exc Empty) Bool × Heap :=
  match calculate e v.data none () h with
  | (.ok f, h) => (.ok (Fp12.one.equal f.1), delete v.block h)
  | (.error x, h) => (.error x, delete v.block h)

/-- `verify` (`src/signatures.cpp:538-560`). -/
def verify (e : Env) (pubkey : G1 K) (message : List UInt8) (signature : G2 K) (h : Heap) : Except (Exc Empty) Bool × Heap :=
  match addPair e ⟨[], 0, []⟩ (G1.one : G1 K).negate signature h with
  | (.error x, h) => (.error x, h)
  | (.ok v, h) =>
    match Sig.fromMessage message Sig.ciphersuiteId with
    | none => (.error .undefined, delete v.block h)
    | some hashedPoint =>
      match addPair e v pubkey hashedPoint h with
      | (.error x, h) => (.error x, delete v.block h)
      | (.ok v, h) =>
        if !pubkey.isOnCurve FpC.B || !pubkey.inCorrectSubgroup then (.ok false, delete v.block h)
        else if !signature.isOnCurve Fp2.B || !signature.inCorrectSubgroup then (.ok false, delete v.block h)
        else finish e v h

/-- A `set<vector<uint8_t>>` (`src/signatures.cpp:605`): its elements and their blocks. -/
structure MsgSet where
  blocks : List (Nat × Nat)
  elems : List (List UInt8)

/-- `setMessages.insert({message.begin(), message.end()})` for all messages (`src/signatures.cpp:606-609`): a copy of the message, then a
node if the set does not have it yet; the set and what the exception leaves in it. -/
def insertAll (e : Env) : List (List UInt8) → MsgSet → Heap → Except (Exc Empty) Unit × MsgSet × Heap
  | [], s, h => (.ok (), s, h)
  | m :: ms, s, h =>
    match allocate e 1 m.length h with
    | (.error x, h) => (.error x, s, h)
    | (.ok copy, h) =>
      if s.elems.contains m then insertAll e ms s (delete copy h)
      else
        match new e e.node h with
        | (.error x, h) => (.error x, s, delete copy h)
        | (.ok node, h) => insertAll e ms ⟨node :: copy ++ s.blocks, m :: s.elems⟩ h

/-- Whether there are as many different messages as keys (`src/signatures.cpp:602-615`). -/
def distinct (e : Env) (messages : List (List UInt8)) (n : Nat) (h : Heap) : Except (Exc Empty) Bool × Heap :=
  match insertAll e messages ⟨[], []⟩ h with
  | (.error x, s, h) => (.error x, delete s.blocks h)
  | (.ok (), s, h) => (.ok (s.elems.length == n), delete s.blocks h)

/-- The loop of `aggregate_verify` (`src/signatures.cpp:617-624`): whether all keys are valid, and the vector. -/
def addAll (e : Env) : List (G1 K) → List (List UInt8) → Vec K → Heap → Except (Exc Empty) Bool × Vec K × Heap
  | pk :: pks, m :: ms, v, h =>
    if !pk.isOnCurve FpC.B || !pk.inCorrectSubgroup then (.ok false, v, h)
    else
      match Sig.fromMessage m Sig.ciphersuiteId with
      | none => (.error .undefined, v, h)
      | some hashed =>
        match addPair e v pk hashed h with
        | (.error x, h) => (.error x, v, h)
        | (.ok v, h) => addAll e pks ms v h
  | _, _, v, h => (.ok true, v, h)

/-- The second half of `aggregate_verify` (`src/signatures.cpp:617-628`). -/
def aggregateTail (e : Env) (pubkeys : List (G1 K)) (messages : List (List UInt8)) (v : Vec K) (h : Heap) :
    Except (Exc Empty) Bool × Heap :=
  match addAll e pubkeys messages v h with
  | (.error x, v, h) => (.error x, delete v.block h)
  | (.ok false, v, h) => (.ok false, delete v.block h)
  | (.ok true, v, h) => finish e v h

/-- `aggregate_verify` (`src/signatures.cpp:582-628`). -/
def aggregateVerify (e : Env) (pubkeys : List (G1 K)) (messages : List (List UInt8)) (signature : G2 K) (check : Bool) (h : Heap) :
    Except (Exc Empty) Bool × Heap :=
  match addPair e ⟨[], 0, []⟩ (G1.one : G1 K).negate signature h with
  | (.error x, h) => (.error x, h)
  | (.ok v, h) =>
    if !signature.isOnCurve Fp2.B || !signature.inCorrectSubgroup then (.ok false, delete v.block h)
    else if pubkeys.length ≠ messages.length then (.ok false, delete v.block h)
    else if check then
      match distinct e messages pubkeys.length h with
      | (.error x, h) => (.error x, delete v.block h)
      | (.ok false, h) => (.ok false, delete v.block h)
      | (.ok true, h) => aggregateTail e pubkeys messages v h
    else aggregateTail e pubkeys messages v h

/-- `fromMessage(vector<uint8_t>(msg.begin(), msg.end()), POP_CIPHERSUITE_ID)` (`src/signatures.cpp:634`, `:644`). -/
def hashKey (e : Env) (pubkey : G1 K) (h : Heap) : Except (Exc Empty) (G2 K) × Heap :=
  match allocate e 1 (Sig.keyBytes pubkey).length h with
  | (.error x, h) => (.error x, h)
  | (.ok copy, h) =>
    match Sig.fromMessage (Sig.keyBytes pubkey) Sig.popCiphersuiteId with
    | none => (.error .undefined, delete copy h)
    | some p => (.ok p, delete copy h)

/-- `pop_prove` (`src/signatures.cpp:630-636`). -/
def popProve (e : Env) (sk : List UInt64) (h : Heap) : Except (Exc Empty) (G2 K) × Heap :=
  match hashKey e (Keys.publicKey sk) h with
  | (.error x, h) => (.error x, h)
  | (.ok hashedKey, h) => (.ok (hashedKey.scale sk), h)

/-- `pop_verify` (`src/signatures.cpp:638-661`). -/
def popVerify (e : Env) (pubkey : G1 K) (signatureProof : G2 K) (h : Heap) : Except (Exc Empty) Bool × Heap :=
  match hashKey e pubkey h with
  | (.error x, h) => (.error x, h)
  | (.ok hashedPoint, h) =>
    if !pubkey.isOnCurve FpC.B || !pubkey.inCorrectSubgroup then (.ok false, h)
    else if !signatureProof.isOnCurve Fp2.B || !signatureProof.inCorrectSubgroup then (.ok false, h)
    else
      match addPair e ⟨[], 0, []⟩ (G1.one : G1 K).negate signatureProof h with
      | (.error x, h) => (.error x, h)
      | (.ok v, h) =>
        match addPair e v pubkey hashedPoint h with
        | (.error x, h) => (.error x, delete v.block h)
        | (.ok v, h) => finish e v h

/-- `pop_fast_aggregate_verify` (`src/signatures.cpp:663-675`). -/
def popFastAggregateVerify (e : Env) (pubkeys : List (G1 K)) (message : List UInt8) (signature : G2 K) (h : Heap) :
    Except (Exc Empty) Bool × Heap :=
  if pubkeys.length = 0 then (.ok false, h) else verify e (Keys.aggregate pubkeys) message signature h

end

end Bls.Vectors
