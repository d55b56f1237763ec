import Verif.Proof.Trace
import Verif.Model.X86Call

/-!
# C61: the assembly routines access only their operands, and always in the same order
-/

namespace Bls.Props

open X86

/-- The routines of `src/arithmetic.s` with two operands. -/
def binary : List (List Instr) := [Asm.add, Asm.ladd, Asm.subtract, Asm.lsubtract, Asm.multiply, Asm.mul_ex]

/-- The routines with one operand. -/
def unary : List (List Instr) := [Asm.double, Asm.ldouble, Asm.negate]

/-- C61: for each routine with two operands there is one list of accesses, relative to the three arguments, that every
run makes: all six words of both operands are read, then the six words of the destination are written once each, nothing
else but the frame is touched, and neither the addresses nor their order depend on anything in memory or in the other
registers. -/
theorem C61_binary (code : List Instr) (hc : code ∈ binary) :
    ∃ T : List RelAccess, (∀ e ∈ T, e.Inside = true) ∧ WritesLast T ∧ (∀ k < 6, .read .x k ∈ T ∧ .read .y k ∈ T) ∧
      ∀ s : Cpu, s.stk = [] → trace code s = some (T.map (RelAccess.at s.rdi s.rsi s.rdx)) := by
  obtain ⟨T, h, hT⟩ := trace_of_atrace (binary_trace code hc)
  simp only [Bool.and_eq_true, List.all_eq_true, List.contains_iff_mem, List.mem_range] at h
  exact ⟨T, h.1.1, writesLast_of_splitOk h.1.2, fun k hk => h.2 k hk, hT⟩

example : ∃ T : List RelAccess, WritesLast T ∧ ∀ s : Cpu, s.stk = [] → trace Asm.multiply s = some (T.map (RelAccess.at s.rdi s.rsi s.rdx)) := by
  obtain ⟨T, -, h, -, h'⟩ := C61_binary Asm.multiply (by simp [binary])
  exact ⟨T, h, h'⟩

/-- C61: the same for the routines with one operand; they do not use the third argument. -/
theorem C61_unary (code : List Instr) (hc : code ∈ unary) :
    ∃ T : List RelAccess, (∀ e ∈ T, e.Inside = true) ∧ WritesLast T ∧ (∀ k < 6, .read .x k ∈ T) ∧ (∀ k, .read .y k ∉ T) ∧
      ∀ s : Cpu, s.stk = [] → trace code s = some (T.map (RelAccess.at s.rdi s.rsi s.rdx)) := by
  obtain ⟨T, h, hT⟩ := trace_of_atrace (unary_trace code hc)
  simp only [Bool.and_eq_true, List.all_eq_true, List.contains_iff_mem, List.mem_range] at h
  exact ⟨T, h.1.1.1, writesLast_of_splitOk h.1.1.2, fun k hk => h.1.2 k hk, fun k hk => absurd (h.2 _ hk) (by simp), hT⟩

example : ∃ T : List RelAccess, WritesLast T ∧ ∀ s : Cpu, s.stk = [] → trace Asm.negate s = some (T.map (RelAccess.at s.rdi s.rsi s.rdx)) := by
  obtain ⟨T, -, h, -, -, h'⟩ := C61_unary Asm.negate (by simp [unary])
  exact ⟨T, h, h'⟩

private theorem accesses_of (code : List Instr) (hc : code ∈ binary ++ unary) :
    ∃ T : List RelAccess, (∀ e ∈ T, e.Inside = true) ∧
      ∀ s : Cpu, s.stk = [] → trace code s = some (T.map (RelAccess.at s.rdi s.rsi s.rdx)) := by
  rcases List.mem_append.1 hc with h | h
  · obtain ⟨T, h1, -, -, h2⟩ := C61_binary code h
    exact ⟨T, h1, h2⟩
  · obtain ⟨T, h1, -, -, -, h2⟩ := C61_unary code h
    exact ⟨T, h1, h2⟩

/-- C61: two calls with the same pointers are indistinguishable by their accesses, whatever the operands are. -/
theorem C61_no_leak (code : List Instr) (hc : code ∈ binary ++ unary) (s s' : Cpu) (hs : s.stk = []) (hs' : s'.stk = [])
    (hz : s.rdi = s'.rdi) (hx : s.rsi = s'.rsi) (hy : s.rdx = s'.rdx) : trace code s = trace code s' ∧ (trace code s).isSome := by
  obtain ⟨T, -, h⟩ := accesses_of code hc
  rw [h s hs, h s' hs', hz, hx, hy]
  exact ⟨rfl, rfl⟩

/-- The operands `p`, `p` and 0, `p`. -/
example : trace Asm.multiply (callState MODULUS MODULUS) = trace Asm.multiply (callState ⟨0, 0, 0, 0, 0, 0⟩ MODULUS) := by
  have h : Asm.multiply ∈ binary ++ unary := by simp [binary]
  generalize Asm.multiply = code at h ⊢
  exact (C61_no_leak code h (callState MODULUS MODULUS) (callState ⟨0, 0, 0, 0, 0, 0⟩ MODULUS) rfl rfl rfl rfl rfl).1

/-- C61: every read is one of the twelve words of the operands and every write one of the six words of the destination. -/
theorem C61_confined (code : List Instr) (hc : code ∈ binary ++ unary) (s : Cpu) (hs : s.stk = []) {l : List Access}
    (hl : trace code s = some l) :
    (∀ a, Access.read a ∈ l → ∃ k < 6, a = s.rsi + UInt64.ofNat (8 * k) ∨ a = s.rdx + UInt64.ofNat (8 * k)) ∧
    (∀ a, Access.write a ∈ l → ∃ k < 6, a = s.rdi + UInt64.ofNat (8 * k)) := by
  obtain ⟨T, hT, h⟩ := accesses_of code hc
  rw [h s hs] at hl
  obtain rfl := Option.some.inj hl
  constructor
  · intro a ha
    obtain ⟨e, he, hea⟩ := List.mem_map.1 ha
    have := hT e he
    match e, hea, this with
    | .read .x k, hea, hk => exact ⟨k, of_decide_eq_true hk, .inl (Access.read.inj hea).symm⟩
    | .read .y k, hea, hk => exact ⟨k, of_decide_eq_true hk, .inr (Access.read.inj hea).symm⟩
  · intro a ha
    obtain ⟨e, he, hea⟩ := List.mem_map.1 ha
    have := hT e he
    match e, hea, this with
    | .write .z k, hea, hk => exact ⟨k, of_decide_eq_true hk, (Access.write.inj hea).symm⟩

/-- The hypotheses hold in every call; here the sixth access of `add` is the read of word 0 of the first operand. -/
example : Asm.multiply ∈ binary ++ unary ∧ (callState MODULUS MODULUS).stk = [] ∧ ∃ l, trace Asm.add (callState MODULUS MODULUS) = some l ∧ l.length = 28 ∧
    l[5]? = some (.read (callState MODULUS MODULUS).rsi) := by
  refine ⟨by simp [binary], rfl, _, rfl, ?_, ?_⟩ <;> decide +kernel

end Bls.Props
