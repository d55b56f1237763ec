import Verif.Proof.Sha256Object

/-!
# C82: a `sha256` object after `digest`

`digest` does not reset the object. C35 is about the first `digest`; here are all later ones.
-/

namespace Bls.Props
open Fips
open Bls.Sha256 (calls after init)

/-- C82: the values of all calls of `digest` in any sequence of calls on one object, whatever its buffer contained at the
start: each is the compression function over the stream so far, where `digest` itself has added its padding and once more the
bytes of the incomplete block. -/
theorem C82_calls (junk : List UInt8) (hj : junk.length = 64) (cs : List Call) :
    (⟨[], 0⟩ : Stream).Answers cs (calls (init junk) cs) := Sha256.calls_spec cs (s := ⟨[], 0⟩) (Sha256.init_inv' junk hj)

/-- A sequence of calls with two digests. -/
example : (⟨[], 0⟩ : Stream).Answers [.update [1, 2], .digest, .update [3], .digest]
    (calls (init (List.replicate 64 7)) [.update [1, 2], .digest, .update [3], .digest]) :=
  C82_calls _ (List.length_replicate ..) _

/-- C82: this determines the values. -/
theorem C82_unique (cs : List Call) (s : Stream) (hs hs' : List (List UInt8)) (h : s.Answers cs hs) (h' : s.Answers cs hs') :
    hs = hs' := Sha256.answers_unique cs h h'

/-- The values do not depend on the buffer at the start. -/
example (cs : List Call) : calls (init (List.replicate 64 7)) cs = calls (init (List.replicate 64 0)) cs :=
  C82_unique cs ⟨[], 0⟩ _ _ (C82_calls _ (List.length_replicate ..) cs) (C82_calls _ (List.length_replicate ..) cs)

/-- C82: no sequence of calls makes `update` or `digest` write outside the buffer. -/
theorem C82_bounds (junk : List UInt8) (hj : junk.length = 64) (cs : List Call) :
    (after (init junk) cs).data.length = 64 ∧ (after (init junk) cs).blocklen < 64 := by
  obtain ⟨s, h⟩ := Sha256.after_inv cs (s := ⟨[], 0⟩) (Sha256.init_inv' junk hj)
  exact ⟨h.length, by rw [h.blocklen]; exact Nat.mod_lt _ (by norm_num)⟩

example : (after (init (List.replicate 64 7)) [.update (List.replicate 60 1), .digest, .update (List.replicate 100 2), .digest]).blocklen < 64 :=
  (C82_bounds _ (List.length_replicate ..) _).2

/-- C82: as long as the count is the length of the stream, that is, up to the first `digest`, the value is SHA-256. -/
theorem C82_first (m h : List UInt8) : (⟨m, m.length⟩ : Stream).Value h ↔ IsSha256 m h := Iff.rfl

/-- C82: the second `digest` in a row, for a message whose last block has fewer than 56 bytes: the padded message, the last
block again, and a length field that counts the last block twice. -/
theorem C82_twice (junk : List UInt8) (hj : junk.length = 64) (m : List UInt8) (hm : m.length % 64 < 56) :
    ∃ h h', calls (init junk) [.update m, .digest, .digest] = [h, h'] ∧ IsSha256 m h ∧
      (⟨pad m ++ m.drop (64 * (m.length / 64)), m.length + m.length % 64⟩ : Stream).Value h' := by
  obtain ⟨h, t, e, v, h', t', e', v', e''⟩ := C82_calls junk hj [.update m, .digest, .digest]
  rw [e'] at e
  rw [e''] at e
  have hc : (0 : ℕ) + m.length = m.length := Nat.zero_add _
  refine ⟨h, h', e, ?_, ?_⟩
  · rw [Stream.update, List.nil_append, hc] at v
    exact v
  · rw [Stream.digest, Stream.update, List.nil_append, hc, Sha256.leftover_short m _ hm] at v'
    exact v'

/-- C82: two calls of `digest` in a row do not return the same, not even for the empty message. -/
theorem C82_twice_differs : ∃ h h', calls (init (List.replicate 64 0)) [.digest, .digest] = [h, h'] ∧ h ≠ h' :=
  ⟨_, _, rfl, by decide +kernel⟩

/-- C82: `update("abc"); digest(); update("def"); digest()` is neither the hash of `abcdef` nor that of `def`. -/
theorem C82_continue : ∃ h h', calls (init (List.replicate 64 0)) [.update [97, 98, 99], .digest, .update [100, 101, 102], .digest]
    = [h, h'] ∧ ¬ IsSha256 [97, 98, 99, 100, 101, 102] h' ∧ ¬ IsSha256 [100, 101, 102] h' := by
  refine ⟨_, _, rfl, fun h => ?_, fun h => ?_⟩
  · have := Sha256.isSha256_unique h (Sha256.hash_isSha256 [[97, 98, 99, 100, 101, 102]])
    revert this
    decide +kernel
  · have := Sha256.isSha256_unique h (Sha256.hash_isSha256 [[100, 101, 102]])
    revert this
    decide +kernel

/-- A sequence of calls with two digests meets C82_calls. -/
example : (calls (init (List.replicate 64 7)) [.update [1, 2], .digest, .update [3], .digest]).length = 2 := rfl

/-- A message of 70 bytes meets C82_twice. -/
example : (List.replicate 70 (1 : UInt8)).length % 64 < 56 := by decide

end Bls.Props
