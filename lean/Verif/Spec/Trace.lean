import Verif.Model.X86

/-!
# What a run shows to an observer of its memory accesses

The code has no branch (`Instr` has no jump), so the instructions that are executed are those of the list. What remains
observable through caches is which words are accessed, and in which order.
-/

namespace Bls.X86

/-- An access to the memory of the caller, or to a slot of the routine's own frame. -/
inductive Access
  | read (a : UInt64)
  | write (a : UInt64)
  | slot (k : Nat)
deriving DecidableEq, Repr

/-- The accesses made by reading an operand. -/
def operandAccess (s : Cpu) : Opd → List Access
  | .reg _ => []
  | .imm _ => []
  | .mem d .rbp => [.slot (((0 - (s.rbp + d)) / 8).toNat - 1)]
  | .mem d b => [.read (s.get b + d)]

/-- The accesses made by one instruction in state `s`. -/
def accesses (s : Cpu) : Instr → List Access
  | .push _ => [.slot s.stk.length]
  | .pop _ => [.slot (s.stk.length - 1)]
  | .mov src _ => operandAccess s src
  | .movRsp _ => []
  | .store _ d b => [.write (s.get b + d)]
  | .add src _ => operandAccess s src
  | .adc src _ => operandAccess s src
  | .sub src _ => operandAccess s src
  | .sbb src _ => operandAccess s src
  | .adcx _ _ => []
  | .adox _ _ => []
  | .mul src => operandAccess s src
  | .mulx src _ _ => operandAccess s src
  | .xor _ _ => []
  | .cmovae _ _ => []
  | .ret => []

/-- The accesses of a whole run; `none` if the run is undefined. -/
def trace : List Instr → Cpu → Option (List Access)
  | [], _ => some []
  | i :: is, s => (step i s).bind fun s' => (trace is s').map (accesses s i ++ ·)

/-- The three arguments of a routine. -/
inductive Arg
  | z | x | y
deriving DecidableEq, Repr

/-- An access relative to the arguments: word `k` of an argument, or a slot of the frame. -/
inductive RelAccess
  | read (arg : Arg) (k : Nat)
  | write (arg : Arg) (k : Nat)
  | slot (k : Nat)
deriving DecidableEq, Repr

/-- The access meant when the arguments are at addresses `z`, `x`, `y`. -/
def RelAccess.at (z x y : UInt64) : RelAccess → Access
  | .read a k => .read ((match a with | .z => z | .x => x | .y => y) + UInt64.ofNat (8 * k))
  | .write a k => .write ((match a with | .z => z | .x => x | .y => y) + UInt64.ofNat (8 * k))
  | .slot k => .slot k

/-- Reads only words 0 to 5 of the operands, writes only words 0 to 5 of the destination, and the frame has at most 24 slots. -/
def RelAccess.Inside : RelAccess → Bool
  | .read .x k => k < 6
  | .read .y k => k < 6
  | .read .z _ => false
  | .write .z k => k < 6
  | .write _ _ => false
  | .slot k => k < 24

/-- The destination is written last: each of its six words once, in order, and nothing is read from an operand afterwards. -/
def WritesLast (T : List RelAccess) : Prop :=
  ∃ before after : List RelAccess, T = before ++ (List.range 6).map (.write .z) ++ after ∧
    (∀ e ∈ before, ∀ a k, e ≠ .write a k) ∧ ∀ e ∈ after, ∃ k, e = .slot k

end Bls.X86
