import Verif.Proof.Dispatch
import Verif.Props.X86

/-!
# C66: the multiplication routine chosen at load time
-/

namespace Bls.Props

open Process

/-- `BLS_DISABLE_BMI2` in ASCII. -/
def disableName : List UInt8 := "BLS_DISABLE_BMI2".toUTF8.toList

/-- C66: on the stack of a new process with any arguments and any environment, the resolver reads the environment to
its end and chooses the routine with `mulx`, `adcx` and `adox` if and only if the processor announces BMI2 and ADX (and
a highest leaf below `2^31`) and no entry of the environment begins with `BLS_DISABLE_BMI2`. -/
theorem C66_choice (cpuid : Dispatch.Cpuid) (mem : Dispatch.Memory) (argv : UInt64) (args env : List (List UInt8))
    (hs : Stack mem argv args env) (fuel : ℕ) (hf : env.length < fuel) :
    ∃ ex, Dispatch.resolve fuel cpuid mem argv = some ex ∧
      (ex = true ↔ ((announced cpuid).bmi2 = true ∧ (announced cpuid).adx = true ∧ (cpuid 0 0).1.toNat < 2 ^ 31) ∧
        ∀ s ∈ env, ¬ disableName <+: s) := by
  have hd : disableName = Dispatch.disableStr := by decide +kernel
  refine ⟨_, Dispatch.resolve_eq hs hf, ?_⟩
  rw [Bool.and_eq_true, Dispatch.cpuHas_iff, hd, Bool.not_eq_true', decide_eq_false_iff_not]
  push Not
  exact and_comm

/-- C66: builds without `ifunc`: before static construction the pointer is the routine without extensions, afterwards
the environment is not consulted. -/
theorem C66_pointer (cpuid : Dispatch.Cpuid) : Dispatch.pointer cpuid false = false ∧
    (Dispatch.pointer cpuid true = true ↔
      (announced cpuid).bmi2 = true ∧ (announced cpuid).adx = true ∧ (cpuid 0 0).1.toNat < 2 ^ 31) := by
  refine ⟨rfl, ?_⟩
  rw [← Dispatch.cpuHas_iff, Dispatch.pointer]
  cases Dispatch.cpuHas cpuid <;> simp

/-- C66: whatever the resolver answers, and at any time in builds without it, the routine consists of instructions of
the processor: it runs as on a processor with all extensions. So do all other routines. -/
theorem C66_runs (cpuid : Dispatch.Cpuid) :
    (∀ fuel mem argv ex, Dispatch.resolve fuel cpuid mem argv = some ex → ∀ s,
      Process.run (announced cpuid) (Dispatch.routine ex) s = X86.run (Dispatch.routine ex) s) ∧
    (∀ constructed s, Process.run (announced cpuid) (Dispatch.routine (Dispatch.pointer cpuid constructed)) s =
      X86.run (Dispatch.routine (Dispatch.pointer cpuid constructed)) s) ∧
    ∀ code ∈ [X86.Asm.add, X86.Asm.ladd, X86.Asm.double, X86.Asm.ldouble, X86.Asm.subtract, X86.Asm.lsubtract,
      X86.Asm.negate, X86.Asm.multiply], ∀ s, Process.run (announced cpuid) code s = X86.run code s := by
  have base : ∀ code ∈ [X86.Asm.add, X86.Asm.ladd, X86.Asm.double, X86.Asm.ldouble, X86.Asm.subtract,
      X86.Asm.lsubtract, X86.Asm.negate, X86.Asm.multiply], ∀ s,
      Process.run (announced cpuid) code s = X86.run code s :=
    fun code hc s => Dispatch.run_eq (Dispatch.base_has _ code hc) s
  have main : ∀ ex, (ex = true → Dispatch.cpuHas cpuid = true) → ∀ s,
      Process.run (announced cpuid) (Dispatch.routine ex) s = X86.run (Dispatch.routine ex) s := by
    intro ex h s
    cases ex with
    | false => exact base _ (by simp [Dispatch.routine]) s
    | true =>
      refine Dispatch.run_eq ?_ s
      have := (Dispatch.cpuHas_iff cpuid).1 (h rfl)
      change X86.Asm.mul_ex.all _ = true
      rw [Dispatch.mul_ex_has, this.1, this.2.1]
      rfl
  refine ⟨fun fuel mem argv ex h => main ex ?_, fun c => main _ ?_, base⟩
  · rintro rfl
    unfold Dispatch.resolve at h
    simp only [Option.map_eq_some_iff] at h
    obtain ⟨d, -, h⟩ := h
    cases d <;> simp_all
  · intro h
    unfold Dispatch.pointer at h
    cases c <;> simp_all

/-- C66: the choice matters: without one of the two extensions the other routine does not run, from any state. -/
theorem C66_needed (cpuid : Dispatch.Cpuid) (h : (announced cpuid).bmi2 = false ∨ (announced cpuid).adx = false)
    (s : X86.Cpu) : Process.run (announced cpuid) X86.Asm.mul_ex s = none := by
  refine Dispatch.run_none ?_ s
  rw [Dispatch.mul_ex_has]
  rcases h with h | h <;> simp [h]

/-- C66: on every processor and in every environment the chosen routine, called with canonical operands at any
addresses, stores the product. -/
theorem C66_product (cpuid : Dispatch.Cpuid) (mem : Dispatch.Memory) (argv : UInt64) (args env : List (List UInt8))
    (hs : Stack mem argv args env) (s : X86.Cpu) (hk : s.stk = []) (a b : ZMod p)
    (ha : (X86.readFp s.mem s.rsi).Rep a) (hb : (X86.readFp s.mem s.rdx).Rep b) :
    ∃ ex s', Dispatch.resolve (env.length + 1) cpuid mem argv = some ex ∧
      Process.run (announced cpuid) (Dispatch.routine ex) s = some s' ∧ (X86.readFp s'.mem s.rdi).Rep (a * b) := by
  obtain ⟨ex, hr, -⟩ := C66_choice cpuid mem argv args env hs (env.length + 1) (by omega)
  have hm : Dispatch.routine ex ∈ [X86.Asm.add, X86.Asm.ladd, X86.Asm.double, X86.Asm.ldouble, X86.Asm.subtract,
      X86.Asm.lsubtract, X86.Asm.negate, X86.Asm.multiply, X86.Asm.mul_ex] := by
    cases ex <;> simp [Dispatch.routine]
  obtain ⟨s', h1, h2, -⟩ := C05_placement _ hm s hk
  refine ⟨ex, s', hr, ?_, ?_⟩
  · rw [(C66_runs cpuid).1 _ _ _ _ hr]; exact h1
  · have h3 := h2 _ _ rfl rfl
    have h4 := (C01_arithmetic ex _ _ a b ha hb).2.2.2.2.1
    have h5 : X86.mul ex (X86.readFp s.mem s.rsi) (X86.readFp s.mem s.rdx) = X86.readFp s'.mem s.rdi := by
      unfold X86.mul X86.result
      change (X86.call (Dispatch.routine ex) _ _).getD _ = _
      rw [h3]; rfl
    rwa [h5] at h4

/-- A processor with both extensions. -/
def exampleCpu : Dispatch.Cpuid := fun leaf _ =>
  if leaf = 0 then (0x16, 0, 0, 0) else if leaf = 7 then (0, 0x00080100, 0, 0) else (0, 0, 0, 0)

/-- A stack at `0x1000` with the argument `a` and the environment `X`, `BLS_DISABLE_BMI2=0`. -/
def exampleMem : Dispatch.Memory := fun a =>
  ([1, 0, 0, 0, 0, 0, 0, 0,
    0x30, 0x10, 0, 0, 0, 0, 0, 0,  0, 0, 0, 0, 0, 0, 0, 0,
    0x32, 0x10, 0, 0, 0, 0, 0, 0,  0x34, 0x10, 0, 0, 0, 0, 0, 0,  0, 0, 0, 0, 0, 0, 0, 0,
    97, 0, 88, 0] ++ disableName ++ [61, 48, 0] : List UInt8).getD (a.toNat - 0x1000) 0

/-- The stack is one of a new process; the variable switches the extensions off although its value is `0`. -/
theorem stack_case : Stack exampleMem 0x1008 [[97]] [[88], disableName ++ [61, 48]] ∧
    Dispatch.resolve 3 exampleCpu exampleMem 0x1008 = some false ∧ Dispatch.cpuHas exampleCpu = true := by
  refine ⟨⟨by decide, by unfold Bytes; decide +kernel, ⟨?_, by unfold Bytes; decide +kernel⟩,
    ⟨?_, by unfold Bytes; decide +kernel⟩⟩, by decide +kernel, by decide +kernel⟩
  · intro i hi
    obtain rfl : i = 0 := by simpa using hi
    exact ⟨0x1030, by decide, by unfold Bytes; decide +kernel, by change 0 ∉ [97]; decide +kernel,
      by change Bytes _ _ ([97] ++ [0]); unfold Bytes; decide +kernel⟩
  · intro i hi
    have : i = 0 ∨ i = 1 := by
      have : i < 2 := hi
      omega
    rcases this with rfl | rfl
    · exact ⟨0x1032, by decide, by unfold Bytes; decide +kernel, by change 0 ∉ [88]; decide +kernel,
      by change Bytes _ _ ([88] ++ [0]); unfold Bytes; decide +kernel⟩
    · exact ⟨0x1034, by decide, by unfold Bytes; decide +kernel, by change 0 ∉ disableName ++ [61, 48]; decide +kernel,
      by change Bytes _ _ (disableName ++ [61, 48] ++ [0]); unfold Bytes; decide +kernel⟩

/-- Hence the resolver chooses as `C66_choice` says, with any fuel above 2. -/
example : Dispatch.resolve 100 exampleCpu exampleMem 0x1008 = some false := by
  obtain ⟨ex, h, hi⟩ := C66_choice exampleCpu exampleMem 0x1008 _ _ stack_case.1 100 (by decide)
  rw [h, Option.some_inj, Bool.eq_false_iff, Ne, hi]
  exact fun k => k.2 (disableName ++ [61, 48]) (by simp) (List.prefix_append _ _)

/-- The same process started without the second entry: the routine with the extensions. -/
example : Dispatch.resolve 3 exampleCpu (fun a => if 0x1020 ≤ a ∧ a < 0x1028 then 0 else exampleMem a) 0x1008 =
    some true := by decide +kernel

/-- A processor without ADX. -/
example : (announced fun leaf _ => if leaf = 0 then (0xd, 0, 0, 0) else (0, 0x100, 0, 0)).bmi2 = true ∧
    (announced fun leaf _ => if leaf = 0 then (0xd, 0, 0, 0) else (0, 0x100, 0, 0)).adx = false := by decide +kernel

example (s : X86.Cpu) : Process.run (announced fun leaf _ => if leaf = 0 then (0xd, 0, 0, 0) else (0, 0x100, 0, 0)) X86.Asm.mul_ex s = none :=
  C66_needed _ (.inr (by decide +kernel)) s

end Bls.Props
