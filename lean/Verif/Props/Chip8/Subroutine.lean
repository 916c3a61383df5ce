import Verif.Proofs.Subroutine
import Verif.Props.Chip8.Structured

/-!
# C99: subroutines on the CHIP-8

The structured programs of C91 with procedures: a procedure is called with `2nnn` and ends with
`00EE`. On the emulator a call notes its own address and the return leads back to it, so the call is
executed again.
-/

namespace Verif.Props.Chip8

open Verif Verif.Chip8 Verif.Spec.Chip8 Verif.Spec.Structured Verif.Spec.Recursive Verif.Structured
  Verif.Recursive Verif.Subroutine
open Verif.Mos (FlatRam flatRam_coherent)
open Verif.Spec.Mos (Mem BusView)

/-- The CHIP-8 with calls as a target. It has no instructions that push or pull a variable, so
programs must not keep variables (`NoKeeping`). -/
def chip8RTarget : RTarget (Fin 15) Nat where
  toTarget := chip8Target
  call l := [0x2000 + l]
  callSize := 2
  ret := [0x00EE]
  save _ := []
  restore _ := []

/-- The machine `c` when it would return to `κ`, if it has made a call. -/
def noted {B R : Type} (c : Chip8 B R) : Option Nat → Chip8 B R
  | none => c
  | some q => { c with stack := { c.stack with
      inner := c.stack.inner.set (c.sp.inner.toNat % 16) (BitVec.ofNat 16 q) } }

/-- The machine `noted c κ` apart from its variables and its program counter. -/
def SubRel {B R : Type} (c : Chip8 B R) (κ : Option Nat) (fs : List Frame) (σ : Store (Fin 15)) (q : Nat)
    (d : Chip8 B R) : Prop := fs = [] ∧ d = withVars (noted c κ) σ q

section
variable {B R : Type} [Addressable B] {b : Build} {c : Chip8 B R} {mem : Mem} {p : Nat}
  {σ : Store (Fin 15)} {κ : Option Nat}

theorem path_subRel {lo hi n : Nat} {s t : Chip8 B R} (h : Path (Next b) (Rel (noted c κ)) lo hi n s t) :
    Path (Next b) (SubRel c κ []) lo hi n s t := by
  induction h with
  | nil => exact .nil
  | cons h h1 h2 hs _ ih => exact .cons ⟨rfl, h⟩ h1 h2 hs ih

/-- One call or return, whatever the clock and the random numbers. -/
theorem next_stack {op : Opcode} {d : Chip8 B R} (hv : BusView b c.address_space mem)
    (hcode : CodeAt mem p [encode op]) (hval : Valid op) (hr : Runs b (withVars c σ p) op)
    (hn : writes (withVars c σ p) op = []) (hw : WellFormed c)
    (hd : ∀ e, after e mem (withVars c σ p) op = d) : Next b (withVars c σ p) d := by
  have h0 : p + 2 * 1 ≤ 4096 := hcode.1
  have hat : At b (withVars c σ p) op := by
    have hpc : (withVars c σ p).pc.toNat = p := toNat_ofNat_lt (by omega)
    refine (C40_fetch (cpu := withVars c σ p) hv (by rw [hpc]; omega) op).2 ⟨hval, ?_⟩
    exact hcode.2 0 _ rfl
  intro env k n
  refine loop_step (fun t => ?_) n
  have := step_to (e := { env k with foldAt := t }) (mem := mem) hat hr (fun _ => hv) (fun _ => hw) hn
  rw [hd] at this
  exact this

omit [Addressable B] in
theorem noted_wf (hw : WellFormed c) : WellFormed (noted c κ) := by
  cases κ with
  | none => exact hw
  | some q => exact ⟨hw.1, by show (c.stack.inner.set _ _).length = 16; rw [List.length_set]; exact hw.2⟩

theorem noted_view (hv : BusView b c.address_space mem) : BusView b (noted c κ).address_space mem := by
  cases κ <;> exact hv

theorem call_next (hv : BusView b c.address_space mem) (hw : WellFormed c) {e : Nat}
    (hc : CodeAt mem p [0x2000 + e]) (he : e ≤ 4095) :
    Next b (withVars (noted c κ) σ p) (withVars (noted c (some p)) σ e) := by
  have he' : (BitVec.ofNat 16 e).toNat = e := toNat_ofNat_lt (by omega)
  refine next_stack (op := .Call ⟨BitVec.ofNat 16 e⟩) (noted_view hv)
    (code_eq (by simp only [encode, nnn, he']) hc) (by show (BitVec.ofNat 16 e).toNat < 4096; rw [he']; omega)
    ⟨fun h => h, fun h => h.2⟩ rfl (noted_wf hw) fun env => ?_
  cases κ with
  | none => rfl
  | some r =>
    show ({ withVars c σ e with stack := { c.stack with
      inner := (c.stack.inner.set _ _).set (c.sp.inner.toNat % 16) (BitVec.ofNat 16 p) } } : Chip8 B R) = _
    rw [List.set_set]
    rfl

theorem ret_next (hv : BusView b c.address_space mem) (hw : WellFormed c) {r : Nat}
    (hc : CodeAt mem p [0x00EE]) :
    Next b (withVars (noted c (some r)) σ p) (withVars (noted c (some r)) σ r) := by
  refine next_stack (op := .Ret) (noted_view hv) (code_eq rfl hc) trivial ⟨fun h => h, fun h => h.2⟩ rfl
    (noted_wf hw) fun env => ?_
  have : (c.stack.inner.set (c.sp.inner.toNat % 16) (BitVec.ofNat 16 r))[c.sp.inner.toNat % 16]?.getD 0 =
      BitVec.ofNat 16 r := by
    rw [List.getElem?_set_self (by rw [hw.2]; omega)]
    rfl
  show ({ withVars (noted c (some r)) σ p with pc := (c.stack.inner.set _ _)[c.sp.inner.toNat % 16]?.getD 0 } :
    Chip8 B R) = _
  rw [this]
  rfl

/-- The parts of the code other than calls and returns. -/
theorem sub_works (hv : BusView b c.address_space mem) (κ : Option Nat) :
    RWorks chip8RTarget chip8Costs (Next b) (SubRel c κ) (CodeAt mem) 4095 0 where
  base fs :=
    { jumpSize := fun _ => rfl
      append := (chip8_works hv).append
      act := by
        rintro p a σ s hc hp ⟨rfl, hs⟩
        obtain ⟨t, t1, t2⟩ := (chip8_works (c := noted c κ) (noted_view hv)).act hc hp hs
        exact ⟨t, path_subRel t1, rfl, t2⟩
      test := by
        rintro p a σ s hc hp ⟨rfl, hs⟩
        obtain ⟨t, t1, t2⟩ := (chip8_works (c := noted c κ) (noted_view hv)).test hc hp hs
        exact ⟨t, path_subRel t1, rfl, t2⟩
      jump := by
        rintro p a σ s hc hp he ⟨rfl, hs⟩
        obtain ⟨t, t1, t2⟩ := (chip8_works (c := noted c κ) (noted_view hv)).jump hc hp he hs
        exact ⟨t, path_subRel t1, rfl, t2⟩ }
  callSize _ := rfl
  retPos := by decide
  callPos := by decide
  call := by rintro p e fs σ s - - - h; omega
  ret := by rintro p r fs σ s - - ⟨h, -⟩; cases h
  save := by rintro p x fs σ s - - h; omega
  restore := by rintro p x v fs σ s - - ⟨h, -⟩; cases h

theorem sub_returns (hv : BusView b c.address_space mem) (hw : WellFormed c) :
    ReturnsToCall chip8RTarget (Next b) (SubRel c) (CodeAt mem) 4095 where
  call := by
    rintro p e κ σ s hc - he ⟨-, rfl⟩
    exact ⟨_, call_next hv hw hc he, rfl, rfl⟩
  ret := by
    rintro p r σ s hc - ⟨-, rfl⟩
    exact ⟨_, ret_next hv hw hc, rfl, rfl⟩

theorem walk_run {rel : List Frame → Store (Fin 15) → Nat → Chip8 B R → Prop} {In : Nat → Prop} {n : Nat}
    {s t : Chip8 B R} (h : Walk (Next b) rel In n s t) (env : Nat → Env) : run b env s n = .ok (.ready t) := by
  have : ∀ k, runLoop b env n k s s = runLoop b env 0 (k + n) t t := by
    induction h with
    | nil => intro k; rfl
    | cons _ _ hs _ ih =>
      intro k
      rw [hs env k _, ih, Nat.add_right_comm, Nat.add_assoc]
  unfold run
  rw [this]
  rfl

variable {φ : Type} {body : φ → Prog (Fin 15) φ} {entry : φ → Nat} {prog : Prog (Fin 15) φ}

/-- Main program and procedures are in memory: the program at `p`, each procedure at its entry with a
return behind it, anywhere below 4095; none of them keeps variables. -/
structure SubInMemory (mem : Mem) (body : φ → Prog (Fin 15) φ) (entry : φ → Nat) (p : Nat)
    (prog : Prog (Fin 15) φ) : Prop where
  main : CodeAt mem p (chip8RTarget.compile entry p prog)
  mainFits : p + chip8RTarget.size prog ≤ 4095
  mainPlain : NoKeeping prog
  procs : ∀ f, CodeAt mem (entry f) (chip8RTarget.compile entry (entry f) (body f) ++ [0x00EE])
  procsFit : ∀ f, entry f + chip8RTarget.size (body f) + 2 ≤ 4095
  procsPlain : ∀ f, NoKeeping (body f)

/-- The addresses of the program and the procedures. -/
def SubInside (body : φ → Prog (Fin 15) φ) (entry : φ → Nat) (p : Nat) (prog : Prog (Fin 15) φ) (q : Nat) : Prop :=
  (p ≤ q ∧ q < p + chip8RTarget.size prog) ∨ ∃ f, entry f ≤ q ∧ q < entry f + chip8RTarget.size (body f) + 2

theorem subInMemory_loaded (h : SubInMemory mem body entry p prog) :
    Loaded chip8RTarget (CodeAt mem) 4095 body entry (SubInside body entry p prog) :=
  ⟨h.procs, h.procsFit, fun f _ h1 h2 => .inr ⟨f, h1, h2⟩⟩

omit [Addressable B] in
theorem subRel_self (hpc : c.pc = BitVec.ofNat 16 p) : SubRel c none [] (vars c) p c :=
  ⟨rfl, (withVars_self hpc).symm⟩

end

/-- C99: a program with procedures that ends with at most sixteen calls open at a time (the stack has
sixteen entries) ends on the emulator behind its code with the values it means in V0 to VE. This does
not hold: see `C99_returns_to_call`. -/
def C99_statement : Prop :=
  ∀ (B R : Type) [Addressable B] (b : Build) (c : Chip8 B R) (mem : Mem) (p : Nat) (φ : Type)
    (body : φ → Prog (Fin 15) φ) (entry : φ → Nat) (prog : Prog (Fin 15) φ) (n : Nat) (σ' : Store (Fin 15)),
    BusView b c.address_space mem → WellFormed c → SubInMemory mem body entry p prog →
    c.pc = BitVec.ofNat 16 p → Exec chip8Costs body 32 prog (vars c) n σ' →
    ∀ env : Nat → Env, ∃ m d, run b env c m = .ok (.ready d) ∧ d.pc.toNat = p + chip8RTarget.size prog ∧
      vars d = σ'

section
variable {B R : Type} [Addressable B] {b : Build} {c : Chip8 B R} {mem : Mem} {p : Nat}
  {φ : Type} {body : φ → Prog (Fin 15) φ} {entry : φ → Nat} {prog : Prog (Fin 15) φ}

/-- C99, what holds: a program with procedures that happens to end without a call ends as it means,
after as many instructions as counted, with everything but V0 to VE unchanged. -/
theorem C99_result_partial (hv : BusView b c.address_space mem) (hcode : SubInMemory mem body entry p prog)
    (hpc : c.pc = BitVec.ofNat 16 p) {n : Nat} {σ' : Store (Fin 15)}
    (h : Exec chip8Costs body 0 prog (vars c) n σ') (env : Nat → Env) :
    run b env c n = .ok (.ready (withVars c σ' (p + chip8RTarget.size prog))) := by
  obtain ⟨t, ht, -, rfl⟩ := rcompile_exec (sub_works hv none) (subInMemory_loaded hcode) h hcode.main
    hcode.mainFits (fun q a b => .inl ⟨a, b⟩) (Nat.le_refl _) (subRel_self hpc)
  exact walk_run ht env

/-- C99, what happens otherwise: a program that loops for ever or comes to a call keeps the machine
inside the code of program and procedures for any number of instructions. It never panics and changes
nothing but V0 to VE and the stack entry at the stack pointer, which holds the address of a call. -/
theorem C99_stuck_partial (hv : BusView b c.address_space mem) (hw : WellFormed c)
    (hcode : SubInMemory mem body entry p prog) (hpc : c.pc = BitVec.ofNat 16 p)
    (h : ¬ Ends chip8Costs body 0 prog (vars c)) (env : Nat → Env) (n : Nat) :
    ∃ κ σ q, run b env c n = .ok (.ready (withVars (noted c κ) σ q)) ∧ SubInside body entry p prog q := by
  obtain ⟨t, κ, fs, σ, q, ht, ⟨-, rfl⟩, hq⟩ := sub_endless (sub_works hv) (sub_returns hv hw)
    (subInMemory_loaded hcode) hcode.procsPlain hcode.mainPlain h hcode.main hcode.mainFits
    (fun q a b => .inl ⟨a, b⟩) (subRel_self hpc) n
  exact ⟨κ, σ, q, walk_run ht env, hq⟩

/-- C99, exactly when the machine gets behind the code: if the end of the program is not itself inside
a procedure, exactly if the program ends without a call. -/
theorem C99_ends_iff_partial (hv : BusView b c.address_space mem) (hw : WellFormed c)
    (hcode : SubInMemory mem body entry p prog) (hpc : c.pc = BitVec.ofNat 16 p)
    (hend : ¬ SubInside body entry p prog (p + chip8RTarget.size prog)) (env : Nat → Env) :
    (∃ n d, run b env c n = .ok (.ready d) ∧ d.pc.toNat = p + chip8RTarget.size prog) ↔
      Ends chip8Costs body 0 prog (vars c) := by
  have hfit := hcode.mainFits
  constructor
  · rintro ⟨n, d, hd, hq⟩
    refine Classical.byContradiction fun hno => ?_
    obtain ⟨κ, σ, q, hr, hin⟩ := C99_stuck_partial hv hw hcode hpc hno env n
    rw [hd] at hr
    injection hr with hr
    injection hr with hr
    subst hr
    have hq' : q < 4095 := by
      rcases hin with ⟨-, h2⟩ | ⟨f, -, h2⟩
      · omega
      · have := hcode.procsFit f
        omega
    change (BitVec.ofNat 16 q).toNat = _ at hq
    rw [toNat_ofNat_lt (by omega)] at hq
    exact hend (hq ▸ hin)
  · rintro ⟨n, σ', h⟩
    refine ⟨n, _, C99_result_partial hv hcode hpc h env, ?_⟩
    show (BitVec.ofNat 16 _).toNat = _
    rw [toNat_ofNat_lt (by omega)]

/-- C99, what a call does: if the procedure ends without a call after `n` instructions, then after
`n + 2` instructions the machine is at the call again, with the procedure done once. -/
theorem C99_call_partial (hv : BusView b c.address_space mem) (hw : WellFormed c) {f : φ}
    (hcode : SubInMemory mem body entry p (.call f)) (hpc : c.pc = BitVec.ofNat 16 p) {n : Nat}
    {σ' : Store (Fin 15)} (h : Exec chip8Costs body 0 (body f) (vars c) n σ') (env : Nat → Env) :
    run b env c (1 + n + 1) = .ok (.ready (withVars (noted c (some p)) σ' p)) := by
  obtain ⟨t, ht, -, rfl⟩ := call_again (sub_works hv) (sub_returns hv hw) (subInMemory_loaded hcode)
    (f := f) (q := p) ⟨⟨none, subRel_self hpc⟩, hcode.main, hcode.mainFits, .inl ⟨Nat.le_refl _, by
      show p < p + 2; omega⟩⟩ h
  exact walk_run ht env

/-- The instructions for `j` rounds of a procedure that takes `N` instructions and changes the values
by `F`. -/
def rounds (F : Store (Fin 15) → Store (Fin 15)) (N : Store (Fin 15) → Nat) (σ : Store (Fin 15)) : Nat → Nat
  | 0 => 0
  | j + 1 => rounds F N σ j + (1 + N (Nat.repeat F j σ) + 1)

/-- C99: a call repeats the procedure for ever: at the end of round `j` the machine is at the call and
the procedure has been done `j` times. -/
theorem C99_rounds_partial (hv : BusView b c.address_space mem) (hw : WellFormed c) {f : φ}
    (hcode : SubInMemory mem body entry p (.call f)) (hpc : c.pc = BitVec.ofNat 16 p)
    {F : Store (Fin 15) → Store (Fin 15)} {N : Store (Fin 15) → Nat}
    (h : ∀ σ, Exec chip8Costs body 0 (body f) σ (N σ) (F σ)) (env : Nat → Env) (j : Nat) :
    run b env c (rounds F N (vars c) (j + 1)) =
      .ok (.ready (withVars (noted c (some p)) (Nat.repeat F (j + 1) (vars c)) p)) := by
  have key : ∃ t, Walk (Next b) (Any (SubRel c)) (SubInside body entry p (.call f)) (rounds F N (vars c) (j + 1)) c t ∧
      SubRel c (some p) [] (Nat.repeat F (j + 1) (vars c)) p t := by
    have hin : SubInside body entry p (.call f) p := .inl ⟨Nat.le_refl _, by show p < p + 2; omega⟩
    induction j with
    | zero =>
      obtain ⟨t, ht, hr⟩ := call_again (sub_works hv) (sub_returns hv hw) (subInMemory_loaded hcode)
        (f := f) (q := p) ⟨⟨none, subRel_self hpc⟩, hcode.main, hcode.mainFits, hin⟩ (h (vars c))
      refine ⟨t, ?_, hr⟩
      have e : rounds F N (vars c) (0 + 1) = 1 + N (vars c) + 1 := by
        show 0 + (1 + N (vars c) + 1) = _
        omega
      rw [e]
      exact ht
    | succ j ih =>
      obtain ⟨s, hs, hr⟩ := ih
      obtain ⟨t, ht, hr'⟩ := call_again (sub_works hv) (sub_returns hv hw) (subInMemory_loaded hcode)
        (f := f) (q := p) ⟨⟨_, hr⟩, hcode.main, hcode.mainFits, hin⟩ (h _)
      exact ⟨t, hs.trans ht, hr'⟩
  obtain ⟨t, ht, -, rfl⟩ := key
  exact walk_run ht env

end

/-! ### Concrete cases -/

/-- `V0 := V0 + 3`. -/
def addBody : Unit → Prog (Fin 15) Unit := fun _ => .act (.add 0 3)

theorem addBody_exec (d : Nat) (σ : Store (Fin 15)) :
    Exec chip8Costs addBody d (addBody ()) σ 1 (Act.eval σ (.add 0 3)) := .act

/-- `if V0 = 0 then call f`. -/
def maybe : Prog (Fin 15) Unit := .ite (.eqK 0 0) (.call ()) .skip

/-- At 0x200 a program, at 0x210 the procedure. -/
def subSample (ws : List Nat) (v : Byte) : Chip8 FlatRam Unit :=
  { codeSample (ws ++ List.replicate (8 - ws.length) 0 ++ [0x7003, 0x00EE]) with
    gp_registers := (codeSample []).gp_registers.set 0 v }

example : chip8RTarget.compile (fun _ : Unit => 0x210) 0x200 maybe = [0x3000, 0x1208, 0x2210, 0x1208] := by
  decide +kernel

theorem maybe_inMemory (v : Byte) :
    SubInMemory (subSample [0x3000, 0x1208, 0x2210, 0x1208] v).address_space.mem addBody (fun _ => 0x210) 0x200
      maybe := by
  show SubInMemory (subSample [0x3000, 0x1208, 0x2210, 0x1208] 0).address_space.mem _ _ _ _
  refine ⟨⟨by decide, fun i w h => ?_⟩, by decide, ⟨trivial, trivial⟩, fun () => ⟨by decide, fun i w h => ?_⟩,
    fun () => by decide, fun _ => trivial⟩
  · have hi : i < 4 := by
      rw [List.getElem?_eq_some_iff] at h
      exact h.1
    match i, hi with
    | 0, _ | 1, _ | 2, _ | 3, _ => cases h; decide +kernel
  · have hi : i < 2 := by
      rw [List.getElem?_eq_some_iff] at h
      exact h.1
    match i, hi with
    | 0, _ | 1, _ => cases h; decide +kernel

theorem call_inMemory (v : Byte) :
    SubInMemory (subSample [0x2210] v).address_space.mem addBody (fun _ => 0x210) 0x200 (.call ()) := by
  show SubInMemory (subSample [0x2210] 0).address_space.mem _ _ _ _
  refine ⟨⟨by decide, fun i w h => ?_⟩, by decide, trivial, fun () => ⟨by decide, fun i w h => ?_⟩,
    fun () => by decide, fun _ => trivial⟩
  · have hi : i < 1 := by
      rw [List.getElem?_eq_some_iff] at h
      exact h.1
    match i, hi with
    | 0, _ => cases h; decide +kernel
  · have hi : i < 2 := by
      rw [List.getElem?_eq_some_iff] at h
      exact h.1
    match i, hi with
    | 0, _ | 1, _ => cases h; decide +kernel

theorem call_not_ends {φ : Type} {body : φ → Prog (Fin 15) φ} {f : φ} (σ : Store (Fin 15)) :
    ¬ Ends chip8Costs body 0 (.call f) σ := by
  rintro ⟨n, σ', h⟩
  cases h

/-- C99 does not hold: the program that calls a procedure once means to end after three instructions,
but the machine never gets behind it. -/
theorem C99_returns_to_call : ¬ C99_statement := by
  intro h
  obtain ⟨m, d, h1, h2, -⟩ := h FlatRam Unit .release (subSample [0x2210] 0) _ 0x200 Unit addBody (fun _ => 0x210)
    (.call ()) 3 _ (view _ _) ⟨rfl, rfl⟩ (call_inMemory 0) (by decide +kernel)
    (.call (d := 30) (addBody_exec 30 _)) (fun _ => ⟨0, 0, 0, 0⟩)
  refine call_not_ends _ ((C99_ends_iff_partial (view _ _) ⟨rfl, rfl⟩ (call_inMemory 0) (by decide +kernel) ?_ _).1
    ⟨m, d, h1, h2⟩)
  rintro (⟨-, h⟩ | ⟨_, h, -⟩)
  · exact Nat.lt_irrefl _ h
  · change 0x210 ≤ 0x200 + 2 at h
    omega

/-- With V0 = 5 the program makes no call and ends after two instructions. -/
example (env : Nat → Env) : ∃ d, run .debug env (subSample [0x3000, 0x1208, 0x2210, 0x1208] 5) 2 = .ok (.ready d) ∧
    d.pc = 0x208 :=
  ⟨_, C99_result_partial (p := 0x200) (n := 2) (view _ _) (maybe_inMemory 5) (by decide +kernel)
    (.iteFalse (g := .eqK 0 0) (by show ¬ (_ = _); decide +kernel) .skip) env, by decide +kernel⟩

/-- With V0 = 0 it makes the call and stays inside for ever. -/
example (env : Nat → Env) (n : Nat) : ∃ κ σ q,
    run .debug env (subSample [0x3000, 0x1208, 0x2210, 0x1208] 0) n = .ok (.ready
      (withVars (noted (subSample [0x3000, 0x1208, 0x2210, 0x1208] 0) κ) σ q)) ∧
    SubInside addBody (fun _ => 0x210) 0x200 maybe q := by
  refine C99_stuck_partial (view _ _) ⟨rfl, rfl⟩ (maybe_inMemory 0) (by decide +kernel) ?_ env n
  rintro ⟨n, σ', h⟩
  cases h with
  | iteTrue _ h => cases h
  | iteFalse hg _ => exact hg (by show _ = _; decide +kernel)

/-- Fifty rounds of `V0 := V0 + 3` take 150 instructions and end at the call with V0 = 150. -/
example (env : Nat → Env) : ∃ d, run .release env (subSample [0x2210] 0) 150 = .ok (.ready d) ∧
    d.pc = 0x200 ∧ vars d 0 = 150 := by
  refine ⟨_, C99_rounds_partial (p := 0x200) (F := fun σ => Act.eval σ (.add 0 3)) (N := fun _ => 1)
    (view _ _) ⟨rfl, rfl⟩ (call_inMemory 0) (by decide +kernel) (addBody_exec 0) env 49, by decide +kernel, ?_⟩
  decide +kernel

/-- One call: three instructions, and the machine is at the call. -/
example (env : Nat → Env) : ∃ d, run .release env (subSample [0x2210] 7) 3 = .ok (.ready d) ∧
    d.pc = 0x200 ∧ vars d 0 = 10 :=
  ⟨_, C99_call_partial (p := 0x200) (n := 1) (view _ _) ⟨rfl, rfl⟩ (call_inMemory 7) (by decide +kernel)
    (addBody_exec 0 _) env, by decide +kernel, by decide +kernel⟩

end Verif.Props.Chip8
