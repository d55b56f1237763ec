import Mathlib.Data.List.Forall2
import Mathlib.Tactic.SplitIfs
import Mathlib.Tactic.Cases
import Verif.Spec.Trace
import Verif.Model.AsmCode

/-! Which addresses the assembly routines access: an abstract execution that knows only where the pointers are. -/

namespace Bls.X86

/-- What is known of a word: an argument, an address in the frame, or nothing. -/
inductive AVal
  | arg (a : Arg)
  | frame (v : UInt64)
  | any
deriving DecidableEq

/-- What is known of a state. -/
structure ACpu where
  reg : Reg → AVal
  stk : List AVal

/-- The word is as known. -/
def AVal.Ok (z x y : UInt64) : AVal → UInt64 → Prop
  | .arg .z, v => v = z
  | .arg .x, v => v = x
  | .arg .y, v => v = y
  | .frame w, v => v = w
  | .any, _ => True

def ACpu.Ok (z x y : UInt64) (a : ACpu) (s : Cpu) : Prop :=
  (∀ r, (a.reg r).Ok z x y (s.get r)) ∧ List.Forall₂ (AVal.Ok z x y) a.stk s.stk

def ACpu.set (a : ACpu) (r : Reg) (v : AVal) : ACpu := { a with reg := fun t => if t = r then v else a.reg t }

/-- Abstract operand: accesses and value. -/
def ACpu.read (a : ACpu) : Opd → Option (List RelAccess × AVal)
  | .reg r => some ([], a.reg r)
  | .imm _ => some ([], .any)
  | .mem d .rbp =>
    match a.reg .rbp with
    | .frame w =>
      let k := ((0 - (w + d)) / 8).toNat - 1
      (a.stk.reverse[k]?).map fun v => ([.slot k], v)
    | _ => none
  | .mem d b =>
    match a.reg b with
    | .arg g => if UInt64.ofNat (8 * (d.toNat / 8)) = d then some ([.read g (d.toNat / 8)], .any) else none
    | _ => none

def astep (a : ACpu) : Instr → Option (List RelAccess × ACpu)
  | .push r => some ([.slot a.stk.length], { a with stk := a.reg r :: a.stk })
  | .pop r =>
    match a.stk with
    | [] => none
    | v :: rest => some ([.slot (a.stk.length - 1)], ({ a with stk := rest } : ACpu).set r v)
  | .mov src dst => (a.read src).map fun e => (e.1, a.set dst e.2)
  | .movRsp dst => some ([], a.set dst (.frame (0 - 8 * UInt64.ofNat a.stk.length)))
  | .store _ d b =>
    match a.reg b with
    | .arg g => if UInt64.ofNat (8 * (d.toNat / 8)) = d then some ([.write g (d.toNat / 8)], a) else none
    | _ => none
  | .add src dst => (a.read src).map fun e => (e.1, a.set dst .any)
  | .adc src dst => (a.read src).map fun e => (e.1, a.set dst .any)
  | .sub src dst => (a.read src).map fun e => (e.1, a.set dst .any)
  | .sbb src dst => (a.read src).map fun e => (e.1, a.set dst .any)
  | .adcx _ dst => some ([], a.set dst .any)
  | .adox _ dst => some ([], a.set dst .any)
  | .mul src => (a.read src).map fun e => (e.1, (a.set .rax .any).set .rdx .any)
  | .mulx src lo hi => (a.read src).map fun e => (e.1, (a.set lo .any).set hi .any)
  | .xor _ dst => some ([], a.set dst .any)
  | .cmovae _ dst => some ([], a.set dst .any)
  | .ret => if a.stk.isEmpty then some ([], a) else none

def atrace : List Instr → ACpu → Option (List RelAccess)
  | [], _ => some []
  | i :: is, a => (astep a i).bind fun e => (atrace is e.2).map (e.1 ++ ·)

/-- At entry the three arguments are known. -/
def aentry : ACpu := ⟨fun r => match r with | .rdi => .arg .z | .rsi => .arg .x | .rdx => .arg .y | _ => .any, []⟩

theorem get_set (s : Cpu) (r : Reg) (v : UInt64) (t : Reg) : (s.set r v).get t = if t = r then v else s.get t := by
  cases r <;> cases t <;> rfl

theorem set_stk (s : Cpu) (r : Reg) (v : UInt64) : (s.set r v).stk = s.stk := by cases r <;> rfl

variable {z x y : UInt64}

theorem ACpu.Ok.set {a : ACpu} {s : Cpu} (h : a.Ok z x y s) (r : Reg) {w : AVal} {v : UInt64} (hv : w.Ok z x y v) :
    (a.set r w).Ok z x y (s.set r v) := by
  refine ⟨fun t => ?_, by rw [set_stk]; exact h.2⟩
  rw [get_set, ACpu.set]
  simp only
  split_ifs
  · exact hv
  · exact h.1 t

/-- Flags and memory do not matter. -/
theorem ACpu.Ok.congr {a : ACpu} {s s' : Cpu} (h : a.Ok z x y s) (hg : ∀ r, s'.get r = s.get r) (hk : s'.stk = s.stk) :
    a.Ok z x y s' := ⟨fun r => by rw [hg]; exact h.1 r, by rw [hk]; exact h.2⟩

theorem read_base {a : ACpu} {s : Cpu} (h : a.Ok z x y s) {d : UInt64} {b : Reg} {g : Arg} (hb : a.reg b = .arg g)
    (hd : UInt64.ofNat (8 * (d.toNat / 8)) = d) :
    (RelAccess.read g (d.toNat / 8)).at z x y = .read (s.get b + d) ∧
      (RelAccess.write g (d.toNat / 8)).at z x y = .write (s.get b + d) := by
  have := h.1 b
  rw [hb] at this
  simp only [RelAccess.at]
  rw [hd]
  cases g <;> exact ⟨congrArg (Access.read <| · + d) this.symm, congrArg (Access.write <| · + d) this.symm⟩

theorem forall₂_getElem? {α β : Type} {R : α → β → Prop} {l : List α} {m : List β} (h : List.Forall₂ R l m) (k : Nat) {v : α}
    (hv : l[k]? = some v) : ∃ w, m[k]? = some w ∧ R v w := by
  induction h generalizing k with
  | nil => simp at hv
  | cons h _ ih =>
    cases k with
    | zero => exact ⟨_, rfl, by simp at hv; exact hv ▸ h⟩
    | succ k => exact ih k (by simpa using hv)

theorem ACpu.read_ok {a : ACpu} {s : Cpu} (h : a.Ok z x y s) (o : Opd) {e : List RelAccess × AVal} (he : a.read o = some e) :
    ∃ v, s.read o = some v ∧ e.2.Ok z x y v ∧ operandAccess s o = e.1.map (RelAccess.at z x y) := by
  match o, he with
  | .reg r, he =>
    obtain rfl := Option.some.inj he
    exact ⟨_, rfl, h.1 r, rfl⟩
  | .imm w, he =>
    obtain rfl := Option.some.inj he
    exact ⟨_, rfl, trivial, rfl⟩
  | .mem d b, he =>
    by_cases hb : b = .rbp
    · subst hb
      rw [ACpu.read] at he
      rcases hr : a.reg .rbp with g | w | _ <;> rw [hr] at he <;> simp only [reduceCtorEq] at he
      have hw : s.rbp = w := by
        have := h.1 .rbp
        rw [hr] at this
        exact this
      obtain ⟨v, hv, rfl⟩ := Option.map_eq_some_iff.1 he
      have h2 := List.rel_reverse h.2
      obtain ⟨u, hu, hR⟩ := forall₂_getElem? h2 _ hv
      refine ⟨u, ?_, hR, ?_⟩
      · rw [Cpu.read, stkRead, hw]; exact hu
      · rw [operandAccess, hw]; rfl
    · have e1 : s.read (.mem d b) = some (s.mem (s.get b + d)) := by cases b <;> first | rfl | exact absurd rfl hb
      have e2 : operandAccess s (.mem d b) = [.read (s.get b + d)] := by cases b <;> first | rfl | exact absurd rfl hb
      have e3 : a.read (.mem d b) = match a.reg b with
        | .arg g => if UInt64.ofNat (8 * (d.toNat / 8)) = d then some ([.read g (d.toNat / 8)], .any) else none
        | _ => none := by cases b <;> first | rfl | exact absurd rfl hb
      rw [e3] at he
      rcases hr : a.reg b with g | w | _ <;> rw [hr] at he <;> simp only [reduceCtorEq] at he
      split_ifs at he with hd
      obtain rfl := Option.some.inj he
      refine ⟨_, e1, trivial, ?_⟩
      rw [e2, List.map_cons, (read_base h hr hd).1]
      rfl

theorem astep_ok {a : ACpu} {s : Cpu} (h : a.Ok z x y s) (i : Instr) {e : List RelAccess × ACpu} (he : astep a i = some e) :
    ∃ s', step i s = some s' ∧ e.2.Ok z x y s' ∧ accesses s i = e.1.map (RelAccess.at z x y) := by
  have hl : a.stk.length = s.stk.length := h.2.length_eq
  -- an instruction that overwrites one register
  have one : ∀ (src : Opd) (dst : Reg) (f : UInt64 → Cpu), (∀ v, ∃ w c o, f v = { s.set dst w with cf := c, of := o }) →
      (a.read src).map (fun e => (e.1, a.set dst .any)) = some e →
      ∃ s', (s.read src).map f = some s' ∧ e.2.Ok z x y s' ∧ operandAccess s src = e.1.map (RelAccess.at z x y) := by
    intro src dst f hf he
    obtain ⟨e', he', rfl⟩ := Option.map_eq_some_iff.1 he
    obtain ⟨v, h1, -, h3⟩ := ACpu.read_ok h src he'
    obtain ⟨w, c, o, hw⟩ := hf v
    refine ⟨f v, by rw [h1, Option.map_some], ?_, h3⟩
    rw [hw]
    exact (h.set (w := .any) dst (v := w) trivial).congr (fun r => by cases r <;> rfl) rfl
  match i, he with
  | .push r, he =>
    obtain rfl := Option.some.inj he
    refine ⟨_, rfl, ⟨fun t => ?_, .cons (h.1 r) h.2⟩, ?_⟩
    · have := h.1 t
      cases t <;> exact this
    · rw [accesses, ← hl]; rfl
  | .pop r, he =>
    rw [astep] at he
    rcases hk : a.stk with _ | ⟨v, rest⟩ <;> rw [hk] at he <;> simp only [reduceCtorEq] at he
    obtain rfl := Option.some.inj he
    have h2 := h.2
    rw [hk] at h2
    rcases hs : s.stk with _ | ⟨w, t⟩
    · rw [hs] at h2; exact absurd h2 (by simp)
    · rw [hs] at h2
      obtain ⟨h3, h4⟩ := List.forall₂_cons.1 h2
      have h5 : ({ a with stk := rest } : ACpu).Ok z x y { s with stk := t } :=
        ⟨fun u => by have := h.1 u; cases u <;> exact this, h4⟩
      refine ⟨({ s with stk := t } : Cpu).set r w, by rw [step, hs], h5.set r h3, ?_⟩
      rw [accesses, ← hl, hk]; rfl
  | .mov src dst, he =>
    obtain ⟨e', he', rfl⟩ := Option.map_eq_some_iff.1 he
    obtain ⟨v, h1, h2, h3⟩ := ACpu.read_ok h src he'
    exact ⟨_, by rw [step, h1, Option.map_some], h.set dst h2, h3⟩
  | .movRsp dst, he =>
    obtain rfl := Option.some.inj he
    exact ⟨_, rfl, h.set dst (by rw [hl]; rfl), rfl⟩
  | .store src d b, he =>
    rw [astep] at he
    rcases hr : a.reg b with g | w | _ <;> rw [hr] at he <;> simp only [reduceCtorEq] at he
    split_ifs at he with hd
    obtain rfl := Option.some.inj he
    refine ⟨_, rfl, h.congr (fun r => by cases r <;> rfl) rfl, ?_⟩
    rw [accesses, List.map_cons, (read_base h hr hd).2]
    rfl
  | .add src dst, he => exact one src dst _ (fun v => ⟨_, _, _, rfl⟩) he
  | .adc src dst, he => exact one src dst _ (fun v => ⟨_, _, _, rfl⟩) he
  | .sub src dst, he => exact one src dst _ (fun v => ⟨_, _, _, rfl⟩) he
  | .sbb src dst, he => exact one src dst _ (fun v => ⟨_, _, _, rfl⟩) he
  | .adcx src dst, he =>
    obtain rfl := Option.some.inj he
    exact ⟨_, rfl, (h.set (w := .any) dst (v := _) trivial).congr (fun r => by cases r <;> rfl) rfl, rfl⟩
  | .adox src dst, he =>
    obtain rfl := Option.some.inj he
    exact ⟨_, rfl, (h.set (w := .any) dst (v := _) trivial).congr (fun r => by cases r <;> rfl) rfl, rfl⟩
  | .mul src, he =>
    obtain ⟨e', he', rfl⟩ := Option.map_eq_some_iff.1 he
    obtain ⟨v, h1, -, h3⟩ := ACpu.read_ok h src he'
    refine ⟨_, by rw [step, h1, Option.map_some], ?_, h3⟩
    exact ((h.set (w := .any) .rax (v := (mul64 s.rax v).2) trivial).set (w := .any) .rdx (v := (mul64 s.rax v).1) trivial).congr (fun r => by cases r <;> rfl) rfl
  | .mulx src lo hi, he =>
    obtain ⟨e', he', rfl⟩ := Option.map_eq_some_iff.1 he
    obtain ⟨v, h1, -, h3⟩ := ACpu.read_ok h src he'
    exact ⟨_, by rw [step, h1, Option.map_some], (h.set (w := .any) lo trivial).set (w := .any) hi trivial, h3⟩
  | .xor src dst, he =>
    obtain rfl := Option.some.inj he
    exact ⟨_, rfl, (h.set (w := .any) dst (v := _) trivial).congr (fun r => by cases r <;> rfl) rfl, rfl⟩
  | .cmovae src dst, he =>
    obtain rfl := Option.some.inj he
    exact ⟨_, rfl, h.set (w := .any) dst trivial, rfl⟩
  | .ret, he =>
    rw [astep] at he
    split_ifs at he with hk
    obtain rfl := Option.some.inj he
    refine ⟨s, ?_, h, rfl⟩
    rw [step, if_pos]
    rw [List.isEmpty_iff] at hk ⊢
    rw [hk] at hl
    exact List.eq_nil_of_length_eq_zero hl.symm

theorem atrace_ok (code : List Instr) {a : ACpu} {s : Cpu} (h : a.Ok z x y s) {T : List RelAccess} (hT : atrace code a = some T) :
    trace code s = some (T.map (RelAccess.at z x y)) := by
  induction code generalizing a s T with
  | nil =>
    obtain rfl := Option.some.inj hT
    rfl
  | cons i is ih =>
    rw [atrace] at hT
    obtain ⟨e, he, hT⟩ := Option.bind_eq_some_iff.1 hT
    obtain ⟨U, hU, rfl⟩ := Option.map_eq_some_iff.1 hT
    obtain ⟨s', h1, h2, h3⟩ := astep_ok h i he
    rw [trace, h1, Option.bind_some, ih h2 hU, Option.map_some, h3, List.map_append]

def notWrite : RelAccess → Bool
  | .write _ _ => false
  | _ => true

def isSlot : RelAccess → Bool
  | .slot _ => true
  | _ => false

/-- Splits the list at the writes. -/
def splitOk (T : List RelAccess) : Bool :=
  (T.dropWhile notWrite).take 6 == (List.range 6).map (.write .z) && ((T.dropWhile notWrite).drop 6).all isSlot

theorem writesLast_of_splitOk {T : List RelAccess} (h : splitOk T = true) : WritesLast T := by
  unfold splitOk at h
  rw [Bool.and_eq_true, beq_iff_eq] at h
  obtain ⟨h1, h2⟩ := h
  refine ⟨T.takeWhile notWrite, (T.dropWhile notWrite).drop 6, ?_, ?_, ?_⟩
  · rw [List.append_assoc, ← h1, List.take_append_drop, List.takeWhile_append_dropWhile]
  · rintro e he a k rfl
    have h3 := List.all_eq_true.1 (List.all_takeWhile (p := notWrite) (l := T)) _ he
    exact absurd h3 (by simp [notWrite])
  · intro e he
    have := List.all_eq_true.1 h2 e he
    match e, this with
    | .slot k, _ => exact ⟨k, rfl⟩

/-- If the abstract run succeeds inside the bounds, the accesses depend on the arguments only. -/
theorem trace_of_atrace {code : List Instr} {P : List RelAccess → Bool} (h : (atrace code aentry).any P) :
    ∃ T : List RelAccess, P T ∧
      ∀ s : Cpu, s.stk = [] → trace code s = some (T.map (RelAccess.at s.rdi s.rsi s.rdx)) := by
  rcases hT : atrace code aentry with _ | T
  · rw [hT] at h; exact absurd h (by simp)
  · rw [hT] at h
    refine ⟨T, h, fun s hs => atrace_ok code (a := aentry) ⟨fun r => ?_, ?_⟩ hT⟩
    · cases r <;> first | rfl | trivial
    · rw [hs]; exact .nil

theorem binary_trace (code : List Instr) (hc : code ∈ [Asm.add, Asm.ladd, Asm.subtract, Asm.lsubtract, Asm.multiply, Asm.mul_ex]) :
    (atrace code aentry).any fun T => T.all RelAccess.Inside && splitOk T &&
      (List.range 6).all fun k => T.contains (.read .x k) && T.contains (.read .y k) := by
  simp only [List.mem_cons, List.not_mem_nil, or_false] at hc
  rcases hc with rfl | rfl | rfl | rfl | rfl | rfl <;> decide +kernel

theorem unary_trace (code : List Instr) (hc : code ∈ [Asm.double, Asm.ldouble, Asm.negate]) :
    (atrace code aentry).any fun T => T.all RelAccess.Inside && splitOk T &&
      ((List.range 6).all fun k => T.contains (.read .x k)) &&
      T.all fun e => match e with | .read .y _ => false | _ => true := by
  simp only [List.mem_cons, List.not_mem_nil, or_false] at hc
  rcases hc with rfl | rfl | rfl <;> decide +kernel

end Bls.X86
