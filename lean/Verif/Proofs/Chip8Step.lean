import Verif.Proofs.Chip8Decode

/-!
# One step of the CHIP-8: lemmas

`after`, `writes` and `Ok` describe what the code does, instruction by instruction; `step_ok` and
`step_panics` prove it. The properties are derived from these.
-/

namespace Verif.Chip8

open Verif Verif.Spec.Chip8
open Verif.Spec.Mos (Mem BusView writeAll)

variable {B R : Type} [Addressable B] {b : Build} {e : Env} {cpu : Chip8 B R} {mem : Mem}

/-- The register with a given number. -/
def regOf : Nat → GpRegisters
  | 0x0 => .V0
  | 0x1 => .V1
  | 0x2 => .V2
  | 0x3 => .V3
  | 0x4 => .V4
  | 0x5 => .V5
  | 0x6 => .V6
  | 0x7 => .V7
  | 0x8 => .V8
  | 0x9 => .V9
  | 0xa => .Va
  | 0xb => .Vb
  | 0xc => .Vc
  | 0xd => .Vd
  | 0xe => .Ve
  | _ => .Vf

theorem num_regOf {k : Nat} (h : k < 16) : num (regOf k) = k := by
  rcases k with _|_|_|_|_|_|_|_|_|_|_|_|_|_|_|_|k <;> first | rfl | omega

theorem regOf_num (r : GpRegisters) : regOf (num r) = r := by cases r <;> rfl

theorem num_lt_15 {r : GpRegisters} (h : r ≠ .Vf) : num r < 15 := by
  cases r <;> first | decide | exact absurd rfl h

theorem num_Vf : num .Vf = 15 := rfl

omit [Addressable B] in
theorem read_gp {r : GpRegisters} (h : r ≠ .Vf) : readGpRegister cpu r = .ok (V cpu r) := by
  have := num_lt_15 h
  unfold readGpRegister V
  rw [asUsize_eq_num, Vector.getElem?_eq_getElem this]
  rfl

omit [Addressable B] in
theorem read_gp_Vf : readGpRegister cpu .Vf = .error .unwrapNone := by
  unfold readGpRegister
  rw [asUsize_eq_num, num_Vf]
  simp

theorem set_gp {gp : Vector Byte 15} {r : GpRegisters} (h : r ≠ .Vf) (v : Byte) :
    setGp gp r v = .ok (gp.setIfInBounds (num r) v) := by
  have := num_lt_15 h
  unfold setGp
  rw [asUsize_eq_num, dif_pos this]
  congr 1
  ext k hk
  simp [Vector.getElem_set, Vector.getElem_setIfInBounds]

theorem set_gp_Vf {gp : Vector Byte 15} (v : Byte) : setGp gp .Vf v = .error .bounds := rfl

theorem add_two (w : Word) : w + 2 = BitVec.ofNat 16 (w.toNat + 2) := by
  apply BitVec.eq_of_toNat_eq
  rw [BitVec.toNat_add, BitVec.toNat_ofNat]
  rfl

theorem add_four (w : Word) : w + 2 + 2 = BitVec.ofNat 16 (w.toNat + 4) := by
  apply BitVec.eq_of_toNat_eq
  rw [BitVec.toNat_add, BitVec.toNat_add, BitVec.toNat_ofNat]
  show ((w.toNat + 2) % 65536 + 2) % 65536 = _
  omega

/-- The microcode that ends every instruction. -/
theorem exec_inc (t : Instant) (c : Chip8 B R) :
    executeAll b t c [.Inc16bitRegister .ProgramCounter 2] = .ok (advance c 2) := by
  simp only [executeAll, executeMut, advance, Res.ok_bind]
  rw [← add_two]

theorem exec_append (t : Instant) (l l' : List Microcode) (c : Chip8 B R) :
    executeAll b t c (l ++ l') = (executeAll b t c l >>= fun c => executeAll b t c l') := by
  induction l generalizing c with
  | nil => simp [executeAll]
  | cons mc l ih =>
    simp only [List.cons_append, executeAll]
    cases executeMut b t c mc with
    | error p => rfl
    | ok c => simp only [Res.ok_bind]; exact ih c

theorem run_one : run b (fun _ => e) cpu 1 =
    (next b e cpu >>= fun x => executeAll b e.foldAt cpu x.1 >>= fun c => .ok (.ready c)) := by
  unfold run runLoop
  cases next b e cpu with
  | error p => rfl
  | ok x =>
    obtain ⟨mcs, it⟩ := x
    simp only [Res.ok_bind, runLoop]
    cases executeAll b e.foldAt cpu mcs <;> rfl

/-- One step, when the microcode runs. -/
theorem step_gen {op : Opcode} {mcs : List Microcode} {f : Instant → Res (Chip8 B R)}
    (hat : At b cpu op) (hg : generate b e cpu op = .ok mcs)
    (hx : ∀ t, executeAll b t cpu mcs = f t)
    (hp : ∀ t t' p, f t = .error p → f t' = .error p) :
    run b (fun _ => e) cpu 1 = (f e.foldAt).map fun c => .ready (advance c 2) := by
  have hx' : ∀ t, executeAll b t cpu (mcs ++ [.Inc16bitRegister .ProgramCounter 2]) =
      (f t).map fun c => advance c 2 := by
    intro t
    rw [exec_append, hx]
    cases f t with
    | error p => rfl
    | ok c => exact exec_inc (b := b) t c
  have hat : fetch b cpu = .ok op := hat
  rw [run_one]
  unfold next
  rw [hat, Res.ok_bind, hg, Res.ok_bind]
  simp only [hx']
  cases h1 : f e.iterAt with
  | error p => rw [hp _ e.foldAt p h1]; rfl
  | ok c =>
    simp only [Except.map, Res.ok_bind, hx']
    cases f e.foldAt <;> rfl

theorem step_ok_gen {op : Opcode} {mcs : List Microcode} {f : Instant → Chip8 B R}
    (hat : At b cpu op) (hg : generate b e cpu op = .ok mcs)
    (hx : ∀ t, executeAll b t cpu mcs = .ok (f t)) :
    StepsTo b e cpu (advance (f e.foldAt) 2) := by
  have := step_gen (f := fun t => .ok (f t)) hat hg hx (by intro t t' p h; cases h)
  exact this

theorem step_panic_gen {op : Opcode} {mcs : List Microcode} {p : Panic}
    (hat : At b cpu op) (hg : generate b e cpu op = .ok mcs)
    (hx : ∀ t, executeAll b t cpu mcs = .error p) : run b (fun _ => e) cpu 1 = .error p := by
  have := step_gen (f := fun _ => .error p) hat hg hx (by intro t t' p h; exact h)
  exact this

theorem step_panic_generate {op : Opcode} {p : Panic} (hat : At b cpu op)
    (hg : generate b e cpu op = .error p) : run b (fun _ => e) cpu 1 = .error p := by
  have hat : fetch b cpu = .ok op := hat
  rw [run_one]
  unfold next
  rw [hat, Res.ok_bind, hg]
  rfl

/-- A list of memory writes. -/
theorem exec_writes (t : Instant) (ws : List (Word × Byte)) (c : Chip8 B R) :
    executeAll b t c (ws.map fun w => .WriteMemory w.1 w.2) =
      (writeAll b c.address_space ws).map fun bus => { c with address_space := bus } := by
  induction ws generalizing c with
  | nil => rfl
  | cons w ws ih =>
    obtain ⟨a, v⟩ := w
    simp only [List.map_cons, executeAll, executeMut, writeMemory, writeAll]
    cases Addressable.write b c.address_space a v with
    | error p => rfl
    | ok x =>
      obtain ⟨r, bus⟩ := x
      cases r with
      | error m => rfl
      | ok r =>
        simp only [Res.ok_bind, unwrapResult]
        rw [ih]

theorem step_writes_gen {op : Opcode} {ws : List (Word × Byte)} (hat : At b cpu op)
    (hg : generate b e cpu op = .ok (ws.map fun w => .WriteMemory w.1 w.2)) :
    StepWrites b e cpu (advance cpu 2) ws := by
  have := step_gen hat hg (fun t => exec_writes t ws cpu) (by intro t t' p h; exact h)
  unfold StepWrites
  rw [this]
  cases writeAll b cpu.address_space ws <;> rfl

theorem mapM_ok {α β : Type} (f : α → Res β) (g : α → β) (l : List α)
    (h : ∀ a ∈ l, f a = .ok (g a)) : l.mapM f = .ok (l.map g) := by
  induction l with
  | nil => rfl
  | cons a l ih =>
    rw [List.mapM_cons, h a (by simp), Res.ok_bind, ih (fun x hx => h x (by simp [hx]))]
    rfl

theorem mapM_error {α β : Type} (f : α → Res β) (l : List α)
    (h : ∃ a ∈ l, ∃ p, f a = .error p) : ∃ p, l.mapM f = .error p := by
  induction l with
  | nil => obtain ⟨a, ha, -⟩ := h; cases ha
  | cons a l ih =>
    rw [List.mapM_cons]
    cases hf : f a with
    | error p => exact ⟨p, rfl⟩
    | ok v =>
      obtain ⟨a', ha', p, hp⟩ := h
      rcases List.mem_cons.1 ha' with rfl | hm
      · rw [hp] at hf; cases hf
      · obtain ⟨q, hq⟩ := ih ⟨a', hm, p, hp⟩
        refine ⟨q, ?_⟩
        rw [Res.ok_bind, hq]
        rfl

theorem regRange_eq (r : GpRegisters) :
    regRange r = (List.range (num r + 1)).map fun k => .ok (regOf k) := by
  cases r <;> rfl

theorem mapM_map {α β γ : Type} (f : β → Res γ) (g : α → β) (l : List α) :
    (l.map g).mapM f = l.mapM (fun a => f (g a)) := by
  induction l with
  | nil => rfl
  | cons a l ih => rw [List.map_cons, List.mapM_cons, List.mapM_cons, ih]

theorem regOf_ne_Vf {k : Nat} (h : k < 15) : regOf k ≠ .Vf := by
  intro he
  have := congrArg num he
  rw [num_regOf (by omega), num_Vf] at this
  omega

/-- The registers after loading `V0..V(n-1)` with `v`. -/
def loadRegs (gp : Vector Byte 15) (n : Nat) (v : Nat → Byte) : Vector Byte 15 :=
  gp.mapFinIdx fun k old _ => if k < n then v k else old

theorem exec_loads (t : Instant) (v : Nat → Byte) (n : Nat) (hn : n ≤ 15) (c : Chip8 B R) :
    executeAll b t c ((List.range n).map fun k => writeGp (regOf k) (v k)) =
      .ok { c with gp_registers := loadRegs c.gp_registers n v } := by
  induction n with
  | zero =>
    simp only [List.range_zero, List.map_nil, executeAll]
    have : loadRegs c.gp_registers 0 v = c.gp_registers := by
      unfold loadRegs; ext k hk; simp
    rw [this]
  | succ n ih =>
    rw [List.range_succ, List.map_append, exec_append, ih (by omega), Res.ok_bind]
    simp only [List.map_cons, List.map_nil, executeAll, executeMut, writeGp, write8,
      set_gp (regOf_ne_Vf (show n < 15 by omega)), Res.ok_bind]
    rw [num_regOf (by omega)]
    have : (loadRegs c.gp_registers n v).setIfInBounds n (v n) = loadRegs c.gp_registers (n + 1) v := by
      unfold loadRegs
      apply Vector.ext
      intro k hk
      simp only [Vector.getElem_setIfInBounds, Vector.getElem_mapFinIdx]
      by_cases h : n = k
      · subst h; simp
      · rw [if_neg h]
        by_cases h' : k < n
        · simp [h', show k < n + 1 by omega]
        · simp [h', show ¬ k < n + 1 by omega]
    rw [this]

theorem exec_loads_panic (t : Instant) (v : Nat → Byte) (c : Chip8 B R) :
    executeAll b t c ((List.range 16).map fun k => writeGp (regOf k) (v k)) = .error .bounds := by
  rw [List.range_succ, List.map_append, exec_append, exec_loads t v 15 (by omega), Res.ok_bind]
  rfl

theorem addU16_ok {x y : Word} (h : b.overflowChecks = false ∨ x.toNat + y.toNat < 65536) :
    addU16 b x y = .ok (x + y) := by
  unfold addU16
  rw [if_neg]
  rintro ⟨h1, h2⟩
  rcases h with h | h
  · rw [h] at h1; cases h1
  · omega

theorem addU16_panic {x y : Word} (h : ¬(b.overflowChecks = false ∨ x.toNat + y.toNat < 65536)) :
    addU16 b x y = .error .overflow := by
  unfold addU16
  rw [if_pos]
  refine ⟨?_, ?_⟩
  · cases hb : b.overflowChecks
    · exact absurd (Or.inl hb) h
    · rfl
  · exact Nat.le_of_not_lt fun h' => h (Or.inr h')

end Verif.Chip8
