import Verif.Proofs.Chip8Range
import Verif.Proofs.Chip8Step

/-!
# What one step of the CHIP-8 does, instruction by instruction

`UsesVf`, `Overflows`, `after` and `writes` describe what the code does; `step_ok` and
`step_panics` prove it.
-/

namespace Verif.Chip8

open Verif Verif.Spec.Chip8
open Verif.Spec.Mos (Mem BusView writeAll)

variable {B R : Type} {b : Build} {e : Env} {cpu : Chip8 B R} {mem : Mem}

/-- The instruction runs. -/
def Runs (b : Build) (cpu : Chip8 B R) (op : Opcode) : Prop :=
  ¬ UsesVf cpu op ∧ ¬ (b.overflowChecks = true ∧ Overflows cpu op)

/-- The memory writes of an instruction. -/
def writes (cpu : Chip8 B R) : Opcode → List (Word × Byte)
  | .LdBcd x =>
    [(cpu.i, V cpu x / 100), (cpu.i + 1, V cpu x % 100 / 10), (cpu.i + 2, V cpu x % 100 % 10)]
  | .StoreRegistersToMemory x => (List.range (num x + 1)).map fun k =>
    (cpu.i + BitVec.ofNat 16 k, V cpu (regOf k))
  | _ => []

/-- The state after an instruction, memory aside. -/
def after (e : Env) (mem : Mem) (cpu : Chip8 B R) : Opcode → Chip8 B R
  | .Cls => advance { cpu with display := Display.default } 2
  | .Ret => { cpu with pc := cpu.stack.inner[cpu.sp.inner.toNat % 16]?.getD 0 }
  | .Call a => { cpu with
      pc := a.val
      stack := { cpu.stack with inner := cpu.stack.inner.set (cpu.sp.inner.toNat % 16) cpu.pc } }
  | .JpNonV0Indexed a => { cpu with pc := a.val }
  | .JpV0Indexed a => { cpu with pc := BitVec.ofNat 16 ((a.val.toNat + (V cpu .V0).toNat) % 4096) }
  | .LdAbsolute a => advance { cpu with i := a.val } 2
  | .LdImmediate x kk => advance (setV cpu x kk) 2
  | .LdVxVy x y => advance (setV cpu x (V cpu y)) 2
  | .LdSoundTimerDestTx x => advance { cpu with st := ⟨e.foldAt, V cpu x⟩ } 2
  | .LdDelayTimerDestTx x => advance { cpu with dt := ⟨e.foldAt, V cpu x⟩ } 2
  | .LdDelayTimerSrcTx x => advance (setV cpu x (timerAt cpu.dt e.readAt)) 2
  | .LdK x => match cpu.interrupt with
    | some (.KeyPress key) => advance (setV cpu x (BitVec.ofNat 8 (keyNum key))) 2
    | none => advance cpu 2
  | .LdSpriteLocation x => advance { cpu with i := BitVec.ofNat 16 ((V cpu x).toNat * 5 % 256) } 2
  | .AddImmediate x kk => advance (setV cpu x (V cpu x + kk)) 2
  | .AddIRegisterIndexed x => advance { cpu with i := BitVec.ofNat 16 (cpu.i.toNat + (V cpu x).toNat) } 2
  | .And x y => advance (setV cpu x (V cpu x &&& V cpu y)) 2
  | .Or x y => advance (setV cpu x (V cpu x ||| V cpu y)) 2
  | .Xor x y => advance (setV cpu x (V cpu x ^^^ V cpu y)) 2
  | .SeVxVy x y => advance cpu (if V cpu x = V cpu y then 4 else 2)
  | .SneVxVy x y => advance cpu (if V cpu x = V cpu y then 2 else 4)
  | .SeImmediate x kk => advance cpu (if V cpu x = kk then 4 else 2)
  | .SneImmediate x kk => advance cpu (if V cpu x = kk then 2 else 4)
  | .Skp x => advance cpu (if Pressed cpu (V cpu x).toNat then 4 else 2)
  | .Sknp x => advance cpu (if Pressed cpu (V cpu x).toNat then 2 else 4)
  | .ReadRegistersFromMemory x =>
    let v := fun k => mem (cpu.i + BitVec.ofNat 16 k)
    advance { cpu with gp_registers := loadRegs cpu.gp_registers (num x + 1) v } 2
  | .Rnd x kk => advance (setV cpu x (e.rand &&& kk)) 2
  | .Sys _ | .LdBcd _ | .StoreRegistersToMemory _ => advance cpu 2
  -- these do not run
  | .AddVxVy _ _ | .Sub _ _ | .Subn _ _ | .Shl _ _ | .Shr _ _ | .Drw _ _ _ => cpu

theorem asU8_eq (key : KeyInputValue) : key.asU8 = BitVec.ofNat 8 (keyNum key) := by
  cases key <;> rfl

theorem asU8_eq_iff (key : KeyInputValue) (v : Byte) : key.asU8 = v ↔ keyNum key = v.toNat := by
  rw [asU8_eq]
  have : keyNum key < 256 := by cases key <;> decide
  constructor
  · rintro rfl
    rw [BitVec.toNat_ofNat, Nat.mod_eq_of_lt this]
  · intro h
    rw [h]
    simp

theorem pressed_some {key : KeyInputValue} (h : cpu.interrupt = some (.KeyPress key)) (n : Nat) :
    Pressed cpu n ↔ keyNum key = n := by
  constructor
  · rintro ⟨k, hk, rfl⟩
    rw [h] at hk
    cases hk
    rfl
  · intro hn
    exact ⟨key, h, hn⟩

theorem pressed_none (h : cpu.interrupt = none) (n : Nat) : ¬ Pressed cpu n := by
  rintro ⟨k, hk, -⟩
  rw [h] at hk
  cases hk

theorem timer_read (t : ClockDecrementing) (now : Instant) :
    t.read b now = .ok (timerAt t now) := by
  have hv := t.inner.isLt
  unfold ClockDecrementing.read ClockDecrementing.elapsedSecs timerAt
  simp only
  generalize hs : (now - t.written_at) / 1000000000 = s
  by_cases h : t.inner.toNat > s
  · rw [if_pos h, if_pos (by omega)]
    unfold subU8
    have hs' : (BitVec.ofNat 8 s).toNat = s := by
      rw [BitVec.toNat_ofNat]; exact Nat.mod_eq_of_lt (by omega)
    rw [if_neg (by rw [hs']; omega)]
    congr 1
    apply BitVec.eq_of_toNat_eq
    rw [BitVec.toNat_sub, BitVec.toNat_ofNat, BitVec.toNat_ofNat]
    omega
  · rw [if_neg h, Nat.sub_eq_zero_of_le (by omega)]
    rfl

theorem fillRange_all (d : Display) : d.fillRange 0 (32 * 64 + 64 + 1) false = Display.default := by
  unfold Display.fillRange Display.default
  congr 1
  apply Vector.ext
  intro y hy
  apply Vector.ext
  intro x hx
  simp only [Vector.getElem_mapFinIdx, Vector.getElem_replicate]
  rw [if_pos (by omega)]

theorem sub_two_add (w : Word) (c : Chip8 B R) :
    advance { c with pc := w - 2 } 2 = { c with pc := w } := by
  unfold advance
  simp only
  rw [← add_two]
  have : w - 2 + 2 = w := BitVec.sub_add_cancel w 2
  rw [this]

theorem advance_advance (c : Chip8 B R) (m n : Nat) :
    advance (advance c m) n = advance c (m + n) := by
  unfold advance
  simp only [BitVec.toNat_ofNat]
  congr 1
  apply BitVec.eq_of_toNat_eq
  simp only [BitVec.toNat_ofNat]
  omega

variable [Addressable B]

theorem exec_nil (t : Instant) (c : Chip8 B R) : executeAll b t c [] = .ok c := rfl

theorem exec_skip (t : Instant) (c : Chip8 B R) : executeAll b t c [incPc2] = .ok (advance c 2) :=
  exec_inc t c

theorem exec_gp {x : GpRegisters} (hx : x ≠ .Vf) (t : Instant) (c : Chip8 B R) (v : Byte) :
    executeAll b t c [writeGp x v] = .ok (setV c x v) := by
  simp only [executeAll, executeMut, writeGp, write8, set_gp hx, Res.ok_bind]
  rfl

theorem exec_gp_Vf (t : Instant) (c : Chip8 B R) (v : Byte) (l : List Microcode) :
    executeAll b t c (writeGp .Vf v :: l) = .error .bounds := rfl

theorem stepWrites_nil {cpu' : Chip8 B R} (h : StepsTo b e cpu cpu')
    (ha : cpu'.address_space = cpu.address_space) : StepWrites b e cpu cpu' [] := by
  unfold StepWrites
  unfold StepsTo at h
  rw [h]
  show _ = Except.ok _
  rw [← ha]

omit [Addressable B] in
theorem stack_read (hw : WellFormed cpu) :
    cpu.stack.read cpu.sp.read.toNat = .ok (cpu.stack.inner[cpu.sp.inner.toNat % 16]?.getD 0) := by
  have hs : cpu.sp.read.toNat = cpu.sp.inner.toNat % 16 := by
    unfold StackPointer.read StackPointer.valueToSp
    rw [BitVec.toNat_umod]
    rfl
  unfold Ring.read Ring.wrap
  rw [hw.1, if_neg (by omega), Res.ok_bind, hs, Nat.mod_mod]
  rfl

omit [Addressable B] in
theorem stack_write (hw : WellFormed cpu) (v : Word) :
    cpu.stack.write cpu.sp.read.toNat v = .ok (.ok v,
      { cpu.stack with inner := cpu.stack.inner.set (cpu.sp.inner.toNat % 16) v }) := by
  have hs : cpu.sp.read.toNat = cpu.sp.inner.toNat % 16 := by
    unfold StackPointer.read StackPointer.valueToSp
    rw [BitVec.toNat_umod]
    rfl
  unfold Ring.write Ring.wrap
  simp only [hw.1]
  rw [if_neg (by omega), Res.ok_bind, hs, Nat.mod_mod, if_pos (by rw [hw.2]; omega)]

theorem jpV0_gen (a : U12) : generate b e cpu (.JpV0Indexed a) =
    .ok [.Write16bitRegister .ProgramCounter
      (BitVec.ofNat 16 ((a.val.toNat + (V cpu .V0).toNat) % 4096) - 2)] := by
  have hlt : (u16OfU8 (V cpu .V0)).toNat = (V cpu .V0).toNat := by
    unfold u16OfU8
    rw [BitVec.toNat_setWidth]
    have := (V cpu .V0).isLt
    omega
  have hnew : U12.new (u16OfU8 (V cpu .V0)) = .ok ⟨u16OfU8 (V cpu .V0)⟩ := by
    unfold U12.new
    rw [if_neg]
    rw [hlt]
    have := (V cpu .V0).isLt
    show ¬ (4095 < _)
    omega
  have hmask : ∀ w : Word, (U12.maskU16 w).toNat = w.toNat % 4096 := by
    intro w
    unfold U12.maskU16
    rw [BitVec.toNat_and]
    exact Nat.and_two_pow_sub_one_eq_mod w.toNat 12
  have hadd : a.wrappingAdd ⟨u16OfU8 (V cpu .V0)⟩ =
      .ok ⟨BitVec.ofNat 16 ((a.val.toNat + (V cpu .V0).toNat) % 4096)⟩ := by
    unfold U12.wrappingAdd U12.new
    rw [if_neg]
    · congr 2
      apply BitVec.eq_of_toNat_eq
      rw [hmask, BitVec.toNat_add, BitVec.toNat_ofNat, hlt]
      omega
    · rw [hmask]
      show ¬ (4095 < _)
      omega
  simp only [generate, genJpV0, read_gp (show GpRegisters.V0 ≠ .Vf by decide), Res.ok_bind, hnew,
    hadd, U12.toU16]

theorem step_skip {op : Opcode} {cpu' : Chip8 B R} (hat : At b cpu op)
    (hg : generate b e cpu op = .ok [incPc2]) (h : cpu' = advance cpu 4) : StepsTo b e cpu cpu' := by
  have := step_ok_gen hat hg fun t => exec_skip t cpu
  rw [advance_advance] at this
  rw [h]
  exact this

theorem step_noskip {op : Opcode} {cpu' : Chip8 B R} (hat : At b cpu op)
    (hg : generate b e cpu op = .ok []) (h : cpu' = advance cpu 2) : StepsTo b e cpu cpu' := by
  rw [h]
  exact step_ok_gen hat hg fun t => exec_nil t cpu

omit [Addressable B] in
theorem addr_ok {k n : Nat} (hk : k ≤ n) (h : b.overflowChecks = true → cpu.i.toNat + n < 65536)
    (_hn : n < 16) : addU16 b cpu.i (BitVec.ofNat 16 k) = .ok (cpu.i + BitVec.ofNat 16 k) := by
  apply addU16_ok
  cases hc : b.overflowChecks
  · exact .inl rfl
  · right
    have := h hc
    rw [BitVec.toNat_ofNat, Nat.mod_eq_of_lt (by omega)]
    omega

theorem readRegs_gen {x : GpRegisters} (hv : BusView b cpu.address_space mem)
    (h : b.overflowChecks = true → cpu.i.toNat + num x < 65536) :
    generate b e cpu (.ReadRegistersFromMemory x) = .ok ((List.range (num x + 1)).map fun k =>
      writeGp (regOf k) (mem (cpu.i + BitVec.ofNat 16 k))) := by
  simp only [generate, genReadRegisters]
  rw [regRange_eq, mapM_map]
  apply mapM_ok
  intro k hk
  have hk : k ≤ num x := Nat.le_of_lt_succ (List.mem_range.1 hk)
  have hn := num_lt x
  rw [Res.ok_bind, asUsize_eq_num, num_regOf (by omega), addr_ok hk h hn, Res.ok_bind]
  rw [hv _, Res.ok_bind]

theorem storeRegs_gen {x : GpRegisters} (hx : x ≠ .Vf)
    (h : b.overflowChecks = true → cpu.i.toNat + num x < 65536) :
    generate b e cpu (.StoreRegistersToMemory x) =
      .ok ((writes cpu (.StoreRegistersToMemory x)).map fun w => .WriteMemory w.1 w.2) := by
  simp only [generate, genStoreRegisters, writes]
  rw [regRange_eq, mapM_map, List.map_map]
  apply mapM_ok
  intro k hk
  have hk : k ≤ num x := Nat.le_of_lt_succ (List.mem_range.1 hk)
  have hn := num_lt_15 hx
  rw [Res.ok_bind, read_gp (regOf_ne_Vf (by omega)), Res.ok_bind, asUsize_eq_num,
    num_regOf (by omega), addr_ok hk h (by omega), Res.ok_bind]
  rfl

/-- What an instruction that runs does. -/
theorem step_ok {op : Opcode} (hat : At b cpu op) (hr : Runs b cpu op)
    (hv : (∃ x, op = .ReadRegistersFromMemory x) → BusView b cpu.address_space mem)
    (hw : op = .Ret ∨ (∃ a, op = .Call a) → WellFormed cpu) :
    StepWrites b e cpu (after e mem cpu op) (writes cpu op) := by
  obtain ⟨hvf, hov⟩ := hr
  cases op <;> simp only [UsesVf, not_true, not_or, not_and, not_false_eq_true] at hvf
  case Cls =>
    refine stepWrites_nil ?_ rfl
    refine step_ok_gen (f := fun _ => { cpu with display := Display.default }) hat rfl fun t => ?_
    show (setDisplayRange b cpu (0, 0) (64, 32) false).bind (fun c => Except.ok c) = _
    rw [setDisplayRange_eq, rangeCounts_cls]
    show Except.ok { cpu with display := cpu.display.fillRange 0 (32 * 64 + 64 + 1) false } = _
    rw [fillRange_all]
  case Ret =>
    refine stepWrites_nil ?_ rfl
    have hg : generate b e cpu .Ret = .ok [.PopStack (cpu.stack.inner[cpu.sp.inner.toNat % 16]?.getD 0),
        .Write16bitRegister .ProgramCounter
          (cpu.stack.inner[cpu.sp.inner.toNat % 16]?.getD 0 - 2)] := by
      simp only [generate, genRet, stack_read (hw (.inl rfl)), Res.ok_bind]
    have := step_ok_gen (f := fun _ => { cpu with
      pc := cpu.stack.inner[cpu.sp.inner.toNat % 16]?.getD 0 - 2 }) hat hg fun t => rfl
    rw [sub_two_add] at this
    exact this
  case Sys a => exact stepWrites_nil (step_ok_gen (f := fun _ => cpu) hat rfl fun t => rfl) rfl
  case Call a =>
    refine stepWrites_nil ?_ rfl
    have := step_ok_gen (e := e) (f := fun _ => { cpu with
      stack := { cpu.stack with inner := cpu.stack.inner.set (cpu.sp.inner.toNat % 16) cpu.pc }
      pc := a.val - 2 }) hat rfl fun t => by
        simp only [genCall, executeAll, executeMut, pushStack, stack_write (hw (.inr ⟨a, rfl⟩)),
          Res.ok_bind,
          unwrapResult]
        rfl
    exact (sub_two_add a.val _ ▸ this : StepsTo b e cpu { ({ cpu with
      stack := { cpu.stack with inner := cpu.stack.inner.set (cpu.sp.inner.toNat % 16) cpu.pc } } :
        Chip8 B R) with pc := a.val })
  case JpNonV0Indexed a =>
    refine stepWrites_nil ?_ rfl
    have := step_ok_gen (e := e) (f := fun _ => { cpu with pc := a.val - 2 }) hat rfl fun t => rfl
    rw [sub_two_add] at this
    exact this
  case JpV0Indexed a =>
    refine stepWrites_nil ?_ rfl
    have hg := jpV0_gen (b := b) (e := e) (cpu := cpu) a
    have := step_ok_gen (f := fun _ => { cpu with pc := _ - 2 }) hat hg fun t => rfl
    rw [sub_two_add] at this
    exact this
  case LdAbsolute a =>
    exact stepWrites_nil (step_ok_gen (f := fun _ => { cpu with i := a.val }) hat rfl fun t => rfl) rfl
  case LdImmediate x kk =>
    exact stepWrites_nil (step_ok_gen hat rfl fun t => exec_gp hvf t cpu kk) rfl
  case LdVxVy x y =>
    refine stepWrites_nil (step_ok_gen hat (mcs := [writeGp x (V cpu y)]) ?_
      fun t => exec_gp hvf.1 t cpu _) rfl
    simp only [generate, genLdVxVy, read_gp hvf.2, Res.ok_bind]
  case LdSoundTimerDestTx x =>
    refine stepWrites_nil (step_ok_gen (f := fun t => { cpu with st := ⟨t, V cpu x⟩ }) hat
      (mcs := [.Write8bitRegister (.TimerRegisters .Sound) (V cpu x)]) ?_ fun t => rfl) rfl
    simp only [generate, genLdSoundTimer, read_gp hvf, Res.ok_bind]
  case LdDelayTimerDestTx x =>
    refine stepWrites_nil (step_ok_gen (f := fun t => { cpu with dt := ⟨t, V cpu x⟩ }) hat
      (mcs := [.Write8bitRegister (.TimerRegisters .Delay) (V cpu x)]) ?_ fun t => rfl) rfl
    simp only [generate, genLdDelayTimer, read_gp hvf, Res.ok_bind]
  case LdDelayTimerSrcTx x =>
    refine stepWrites_nil (step_ok_gen hat (mcs := [writeGp x (timerAt cpu.dt e.readAt)]) ?_
      fun t => exec_gp hvf t cpu _) rfl
    simp only [generate, genLdFromDelayTimer, timer_read, Res.ok_bind]
  case LdBcd x =>
    refine step_writes_gen hat ?_
    have h : b.overflowChecks = true → cpu.i.toNat + 2 < 65536 :=
      fun hc => Nat.lt_of_not_le fun h => hov ⟨hc, h⟩
    have h1 : addU16 b cpu.i 1 = .ok (cpu.i + 1) := addU16_ok (by
      cases hc : b.overflowChecks
      · exact .inl rfl
      · exact .inr (Nat.lt_of_succ_lt (h hc)))
    have h2 : addU16 b cpu.i 2 = .ok (cpu.i + 2) := addU16_ok (by
      cases hc : b.overflowChecks
      · exact .inl rfl
      · exact .inr (h hc))
    simp only [generate, genLdBcd, read_gp hvf, Res.ok_bind, h1, h2]
    rfl
  case LdK x =>
    refine stepWrites_nil ?_ ?_
    · cases hi : cpu.interrupt with
      | none =>
        simp only [after, hi]
        refine step_ok_gen (f := fun _ => cpu) (mcs := [.Dec16bitRegister .ProgramCounter 2]) hat ?_
          fun t => rfl
        simp only [generate, genLdK, hi]
      | some k =>
        obtain ⟨key⟩ := k
        simp only [after, hi]
        refine step_ok_gen (f := fun _ => setV cpu x (BitVec.ofNat 8 (keyNum key)))
          (mcs := [writeGp x key.asU8]) hat ?_ fun t => ?_
        · simp only [generate, genLdK, hi]
        · rw [← asU8_eq]
          refine exec_gp (fun hx => ?_) t cpu _
          exact absurd (hvf hx) (by rw [hi]; simp)
    · simp only [after]
      split <;> rfl
  case LdSpriteLocation x =>
    have hm : u16OfU8 (V cpu x * 5) = BitVec.ofNat 16 ((V cpu x).toNat * 5 % 256) := by
      apply BitVec.eq_of_toNat_eq
      unfold u16OfU8
      rw [BitVec.toNat_setWidth, BitVec.toNat_mul, BitVec.toNat_ofNat]
      rfl
    simp only [after]
    rw [← hm]
    refine stepWrites_nil (step_ok_gen (f := fun _ => { cpu with i := u16OfU8 (V cpu x * 5) }) hat
      (mcs := [.Write16bitRegister .I (u16OfU8 (V cpu x * 5))]) ?_ fun t => rfl) rfl
    · have : mulU8 b (V cpu x) 5 = .ok (V cpu x * 5) := by
        unfold mulU8
        rw [if_neg]
        rintro ⟨h1, h2⟩
        exact hov ⟨h1, h2⟩
      simp only [generate, genLdSpriteLocation, read_gp hvf, Res.ok_bind, this]
  case AddImmediate x kk =>
    refine stepWrites_nil (step_ok_gen (f := fun _ => setV cpu x (V cpu x + kk)) hat rfl
      fun t => ?_) rfl
    simp only [genAddImmediate, executeAll, executeMut, inc8, read_gp hvf, set_gp hvf, Res.ok_bind]
    rfl
  case AddIRegisterIndexed x =>
    have hm : cpu.i + u16OfU8 (V cpu x) = BitVec.ofNat 16 (cpu.i.toNat + (V cpu x).toNat) := by
      apply BitVec.eq_of_toNat_eq
      unfold u16OfU8
      rw [BitVec.toNat_add, BitVec.toNat_setWidth, BitVec.toNat_ofNat]
      omega
    simp only [after]
    rw [← hm]
    refine stepWrites_nil (step_ok_gen (f := fun _ => { cpu with i := cpu.i + u16OfU8 (V cpu x) })
      hat (mcs := [.Inc16bitRegister .I (u16OfU8 (V cpu x))]) ?_ fun t => rfl) rfl
    simp only [generate, genAddI, read_gp hvf, Res.ok_bind]
  case And x y =>
    refine stepWrites_nil (step_ok_gen hat (mcs := [writeGp x (V cpu x &&& V cpu y)]) ?_
      fun t => exec_gp hvf.1 t cpu _) rfl
    simp only [generate, genAnd, read_gp hvf.1, read_gp hvf.2, Res.ok_bind]
  case Or x y =>
    refine stepWrites_nil (step_ok_gen hat (mcs := [writeGp x (V cpu x ||| V cpu y)]) ?_
      fun t => exec_gp hvf.1 t cpu _) rfl
    simp only [generate, genOr, read_gp hvf.1, read_gp hvf.2, Res.ok_bind]
  case Xor x y =>
    refine stepWrites_nil (step_ok_gen hat (mcs := [writeGp x (V cpu x ^^^ V cpu y)]) ?_
      fun t => exec_gp hvf.1 t cpu _) rfl
    simp only [generate, genXor, read_gp hvf.1, read_gp hvf.2, Res.ok_bind]
  case SeVxVy x y =>
    refine stepWrites_nil ?_ rfl
    by_cases h : V cpu x = V cpu y
    · refine step_skip hat ?_ (by simp [after, h])
      simp only [generate, genSeVxVy, read_gp hvf.1, read_gp hvf.2, Res.ok_bind, h, if_true]
    · refine step_noskip hat ?_ (by simp [after, h])
      simp only [generate, genSeVxVy, read_gp hvf.1, read_gp hvf.2, Res.ok_bind]
      rw [if_neg (fun h' => h h'.symm)]
  case SeImmediate x kk =>
    refine stepWrites_nil ?_ rfl
    by_cases h : V cpu x = kk
    · refine step_skip hat ?_ (by simp [after, h])
      simp only [generate, genSeImmediate, read_gp hvf, Res.ok_bind, h, if_true]
    · refine step_noskip hat ?_ (by simp [after, h])
      simp only [generate, genSeImmediate, read_gp hvf, Res.ok_bind, h, if_false]
  case SneVxVy x y =>
    refine stepWrites_nil ?_ rfl
    by_cases h : V cpu x = V cpu y
    · refine step_noskip hat ?_ (by simp [after, h])
      simp only [generate, genSneVxVy, read_gp hvf.1, read_gp hvf.2, Res.ok_bind, h, ne_eq,
        not_true, if_false]
    · refine step_skip hat ?_ (by simp [after, h])
      simp only [generate, genSneVxVy, read_gp hvf.1, read_gp hvf.2, Res.ok_bind]
      rw [if_pos (fun h' => h h'.symm)]
  case SneImmediate x kk =>
    refine stepWrites_nil ?_ rfl
    by_cases h : V cpu x = kk
    · refine step_noskip hat ?_ (by simp [after, h])
      simp only [generate, genSneImmediate, read_gp hvf, Res.ok_bind, h, ne_eq, not_true, if_false]
    · refine step_skip hat ?_ (by simp [after, h])
      simp only [generate, genSneImmediate, read_gp hvf, Res.ok_bind, ne_eq, h, not_false_eq_true,
        if_true]
  case Skp x =>
    refine stepWrites_nil ?_ rfl
    cases hi : cpu.interrupt with
    | none =>
      refine step_noskip hat ?_ (by simp only [after]; rw [if_neg (pressed_none hi _)])
      simp only [generate, genSkp, read_gp hvf, Res.ok_bind, hi]
    | some k =>
      obtain ⟨key⟩ := k
      by_cases h : keyNum key = (V cpu x).toNat
      · refine step_skip hat ?_ (by simp only [after]; rw [if_pos ((pressed_some hi _).2 h)])
        simp only [generate, genSkp, read_gp hvf, Res.ok_bind, hi]
        rw [if_pos ((asU8_eq_iff _ _).2 h)]
      · refine step_noskip hat ?_
          (by simp only [after]; rw [if_neg (fun h' => h ((pressed_some hi _).1 h'))])
        simp only [generate, genSkp, read_gp hvf, Res.ok_bind, hi]
        rw [if_neg (fun h' => h ((asU8_eq_iff _ _).1 h'))]
  case Sknp x =>
    refine stepWrites_nil ?_ rfl
    cases hi : cpu.interrupt with
    | none =>
      refine step_skip hat ?_ (by simp only [after]; rw [if_neg (pressed_none hi _)])
      simp only [generate, genSknp, read_gp hvf, Res.ok_bind, hi]
    | some k =>
      obtain ⟨key⟩ := k
      by_cases h : keyNum key = (V cpu x).toNat
      · refine step_noskip hat ?_ (by simp only [after]; rw [if_pos ((pressed_some hi _).2 h)])
        simp only [generate, genSknp, read_gp hvf, Res.ok_bind, hi]
        rw [if_pos ((asU8_eq_iff _ _).2 h)]
      · refine step_skip hat ?_
          (by simp only [after]; rw [if_neg (fun h' => h ((pressed_some hi _).1 h'))])
        simp only [generate, genSknp, read_gp hvf, Res.ok_bind, hi]
        rw [if_neg (fun h' => h ((asU8_eq_iff _ _).1 h'))]
  case Rnd x kk =>
    exact stepWrites_nil (step_ok_gen hat rfl fun t => exec_gp hvf t cpu _) rfl
  case ReadRegistersFromMemory x =>
    refine stepWrites_nil (step_ok_gen hat (readRegs_gen (hv ⟨x, rfl⟩) fun hc => ?_)
      fun t => exec_loads t _ _ (num_lt_15 hvf) cpu) rfl
    exact Nat.lt_of_not_le fun h => hov ⟨hc, h⟩
  case StoreRegistersToMemory x =>
    refine step_writes_gen hat (storeRegs_gen hvf fun hc => ?_)
    exact Nat.lt_of_not_le fun h => hov ⟨hc, h⟩

theorem panics_generate {op : Opcode} {p : Panic} (hat : At b cpu op)
    (hg : generate b e cpu op = .error p) : StepPanics b e cpu := ⟨p, step_panic_generate hat hg⟩

theorem panics_exec {op : Opcode} {mcs : List Microcode} {p : Panic} (hat : At b cpu op)
    (hg : generate b e cpu op = .ok mcs) (hx : ∀ t, executeAll b t cpu mcs = .error p) :
    StepPanics b e cpu := ⟨p, step_panic_gen hat hg hx⟩

/-- An instruction whose microcode ends in a write of VF. -/
theorem panics_last {op : Opcode} {l : List Microcode} {v : Byte} (hat : At b cpu op)
    (hg : generate b e cpu op = .ok (l ++ [writeGp .Vf v]))
    (hl : ∀ t, ∃ c, executeAll b t cpu l = .ok c) : StepPanics b e cpu := by
  refine panics_exec (p := .bounds) hat hg fun t => ?_
  obtain ⟨c, hc⟩ := hl t
  rw [exec_append, hc, Res.ok_bind]
  rfl

omit [Addressable B] in
theorem read_gp_cases (r : GpRegisters) :
    readGpRegister cpu r = .error .unwrapNone ∧ r = .Vf ∨
    readGpRegister cpu r = .ok (V cpu r) ∧ r ≠ .Vf := by
  by_cases h : r = .Vf
  · subst h; exact .inl ⟨read_gp_Vf, rfl⟩
  · exact .inr ⟨read_gp h, h⟩

/-- The microcode of the pixels of `Drw`. -/
theorem drw_pixels (d : Display) (sprite : List Byte) (x y : Nat) (l : List (Nat × Nat))
    (s s' : Bool × List Microcode) (h : l.foldlM (drwStep d sprite x y) s = .ok s')
    (hs : ∀ mc ∈ s.2, ∃ c v, mc = .SetDisplayPixel c v) :
    ∀ mc ∈ s'.2, ∃ c v, mc = .SetDisplayPixel c v := by
  induction l generalizing s with
  | nil => cases h; exact hs
  | cons o l ih =>
    rw [List.foldlM_cons] at h
    cases hd : drwStep d sprite x y s o with
    | error p => rw [hd] at h; cases h
    | ok s₁ =>
      rw [hd, Res.ok_bind] at h
      refine ih s₁ h ?_
      unfold drwStep at hd
      cases hi : index sprite o.2 with
      | error p => rw [hi] at hd; cases hd
      | ok row =>
        rw [hi, Res.ok_bind] at hd
        cases hd
        intro mc hm
        rcases List.mem_append.1 hm with hm | hm
        · exact hs mc hm
        · rw [List.mem_singleton.1 hm]
          exact ⟨_, _, rfl⟩

theorem exec_pixels (t : Instant) (l : List Microcode)
    (hl : ∀ mc ∈ l, ∃ c v, mc = .SetDisplayPixel c v) (c : Chip8 B R) :
    ∃ c', executeAll b t c l = .ok c' := by
  induction l generalizing c with
  | nil => exact ⟨c, rfl⟩
  | cons mc l ih =>
    obtain ⟨⟨x, y⟩, v, rfl⟩ := hl mc (by simp)
    simp only [executeAll, executeMut, Res.ok_bind]
    exact ih (fun mc hm => hl mc (by simp [hm])) _

theorem two_reads {op : Opcode} {x y : GpRegisters} (hat : At b cpu op) (h : x = .Vf ∨ y = .Vf)
    (h1 : readGpRegister cpu y = .error .unwrapNone → generate b e cpu op = .error .unwrapNone)
    (h2 : readGpRegister cpu y = .ok (V cpu y) → readGpRegister cpu x = .error .unwrapNone →
      generate b e cpu op = .error .unwrapNone) : StepPanics b e cpu := by
  rcases read_gp_cases (cpu := cpu) y with ⟨hy, -⟩ | ⟨hy, hy'⟩
  · exact panics_generate hat (h1 hy)
  · obtain rfl := h.resolve_right hy'
    exact panics_generate hat (h2 hy read_gp_Vf)

omit [Addressable B] in
theorem addr_panics {x : GpRegisters}
    (h : b.overflowChecks = true ∧ 65536 ≤ cpu.i.toNat + num x) :
    ¬(b.overflowChecks = false ∨ cpu.i.toNat + (BitVec.ofNat 16 (num x)).toNat < 65536) := by
  have := num_lt x
  rw [BitVec.toNat_ofNat, Nat.mod_eq_of_lt (by omega)]
  rintro (h' | h')
  · rw [h.1] at h'; cases h'
  · omega

/-- An instruction that does not run panics. -/
theorem step_panics {op : Opcode} (hat : At b cpu op) (hv : BusView b cpu.address_space mem)
    (hr : ¬ Runs b cpu op) : StepPanics b e cpu := by
  replace hr : UsesVf cpu op ∨ (b.overflowChecks = true ∧ Overflows cpu op) := by
    by_cases h : UsesVf cpu op
    · exact .inl h
    · exact .inr (Classical.not_not.1 fun h' => hr ⟨h, h'⟩)
  cases op <;> simp only [UsesVf, Overflows, and_false, or_false] at hr
  case Drw x y n =>
    have hg : generate b e cpu (.Drw x y n) = genDrw b cpu x y n := rfl
    unfold genDrw at hg
    cases h1 : drwSprite b cpu n with
    | error p => rw [h1] at hg; exact panics_generate hat hg
    | ok sprite =>
      rw [h1, Res.ok_bind] at hg
      rcases read_gp_cases (cpu := cpu) x with ⟨h2, -⟩ | ⟨h2, -⟩
      · rw [h2] at hg; exact panics_generate hat hg
      rw [h2, Res.ok_bind] at hg
      rcases read_gp_cases (cpu := cpu) y with ⟨h3, -⟩ | ⟨h3, -⟩
      · rw [h3] at hg; exact panics_generate hat hg
      rw [h3, Res.ok_bind] at hg
      cases h4 : (Display.offsets n.toNat).foldlM
          (drwStep cpu.display sprite (V cpu x).toNat (V cpu y).toNat) (false, []) with
      | error p => rw [h4] at hg; exact panics_generate hat hg
      | ok s =>
        rw [h4, Res.ok_bind] at hg
        refine panics_last hat hg fun t => exec_pixels t _ ?_ cpu
        exact drw_pixels _ _ _ _ _ _ _ h4 (by simp)
  case LdImmediate x kk => subst hr; exact panics_exec hat rfl fun t => rfl
  case Rnd x kk => subst hr; exact panics_exec hat rfl fun t => rfl
  case AddImmediate x kk =>
    subst hr
    refine panics_exec (p := .unwrapNone) hat rfl fun t => ?_
    simp only [genAddImmediate, executeAll, executeMut, inc8, read_gp_Vf, Res.error_bind]
  case LdDelayTimerSrcTx x =>
    subst hr
    refine panics_exec (mcs := [writeGp .Vf (timerAt cpu.dt e.readAt)]) hat ?_ fun t => rfl
    simp only [generate, genLdFromDelayTimer, timer_read, Res.ok_bind]
  case SeImmediate x kk =>
    subst hr; exact panics_generate (p := .unwrapNone) hat (by
      simp only [generate, genSeImmediate, read_gp_Vf, Res.error_bind])
  case SneImmediate x kk =>
    subst hr; exact panics_generate (p := .unwrapNone) hat (by
      simp only [generate, genSneImmediate, read_gp_Vf, Res.error_bind])
  case Skp x =>
    subst hr; exact panics_generate (p := .unwrapNone) hat (by
      simp only [generate, genSkp, read_gp_Vf, Res.error_bind])
  case Sknp x =>
    subst hr; exact panics_generate (p := .unwrapNone) hat (by
      simp only [generate, genSknp, read_gp_Vf, Res.error_bind])
  case LdDelayTimerDestTx x =>
    subst hr; exact panics_generate (p := .unwrapNone) hat (by
      simp only [generate, genLdDelayTimer, read_gp_Vf, Res.error_bind])
  case LdSoundTimerDestTx x =>
    subst hr; exact panics_generate (p := .unwrapNone) hat (by
      simp only [generate, genLdSoundTimer, read_gp_Vf, Res.error_bind])
  case AddIRegisterIndexed x =>
    subst hr; exact panics_generate (p := .unwrapNone) hat (by
      simp only [generate, genAddI, read_gp_Vf, Res.error_bind])
  case LdK x =>
    obtain ⟨rfl, hk⟩ := hr
    cases hi : cpu.interrupt with
    | none => exact absurd hi hk
    | some k =>
      obtain ⟨key⟩ := k
      refine panics_exec (mcs := [writeGp .Vf key.asU8]) hat ?_ fun t => rfl
      simp only [generate, genLdK, hi]
  case LdSpriteLocation x =>
    rcases read_gp_cases (cpu := cpu) x with ⟨h2, -⟩ | ⟨h2, h2'⟩
    · exact panics_generate (p := .unwrapNone) hat (by
        simp only [generate, genLdSpriteLocation, h2, Res.error_bind])
    · have hr := hr.resolve_left h2'
      refine panics_generate (p := .overflow) hat ?_
      have : mulU8 b (V cpu x) 5 = .error .overflow := if_pos hr
      simp only [generate, genLdSpriteLocation, h2, Res.ok_bind, this, Res.error_bind]
  case LdBcd x =>
    rcases read_gp_cases (cpu := cpu) x with ⟨h2, -⟩ | ⟨h2, h2'⟩
    · exact panics_generate (p := .unwrapNone) hat (by simp only [generate, genLdBcd, h2, Res.error_bind])
    · have hr := hr.resolve_left h2'
      refine panics_generate (p := .overflow) hat ?_
      have h : addU16 b cpu.i 2 = .error .overflow := if_pos hr
      simp only [generate, genLdBcd, h2, Res.ok_bind, h, Res.error_bind]
      by_cases h1 : 65536 ≤ cpu.i.toNat + 1
      · have : addU16 b cpu.i 1 = .error .overflow := if_pos ⟨hr.1, h1⟩
        rw [this]; rfl
      · rw [addU16_ok (.inr (by show cpu.i.toNat + 1 < 65536; omega))]; rfl
  case LdVxVy x y =>
    rcases read_gp_cases (cpu := cpu) y with ⟨h2, -⟩ | ⟨h2, h2'⟩
    · exact panics_generate (p := .unwrapNone) hat (by simp only [generate, genLdVxVy, h2, Res.error_bind])
    · obtain rfl := hr.resolve_right h2'
      refine panics_exec (mcs := [writeGp .Vf (V cpu y)]) hat ?_ fun t => rfl
      simp only [generate, genLdVxVy, h2, Res.ok_bind]
  case And x y =>
    exact two_reads hat hr (by intro h; simp only [generate, genAnd, h, Res.error_bind])
      (by intro h h'; simp only [generate, genAnd, h, h', Res.ok_bind, Res.error_bind])
  case Or x y =>
    exact two_reads hat hr (by intro h; simp only [generate, genOr, h, Res.error_bind])
      (by intro h h'; simp only [generate, genOr, h, h', Res.ok_bind, Res.error_bind])
  case Xor x y =>
    exact two_reads hat hr (by intro h; simp only [generate, genXor, h, Res.error_bind])
      (by intro h h'; simp only [generate, genXor, h, h', Res.ok_bind, Res.error_bind])
  case SeVxVy x y =>
    exact two_reads hat hr (by intro h; simp only [generate, genSeVxVy, h, Res.error_bind])
      (by intro h h'; simp only [generate, genSeVxVy, h, h', Res.ok_bind, Res.error_bind])
  case SneVxVy x y =>
    exact two_reads hat hr (by intro h; simp only [generate, genSneVxVy, h, Res.error_bind])
      (by intro h h'; simp only [generate, genSneVxVy, h, h', Res.ok_bind, Res.error_bind])
  case AddVxVy x y =>
    rcases read_gp_cases (cpu := cpu) y with ⟨h2, -⟩ | ⟨h2, h2'⟩
    · exact panics_generate (p := .unwrapNone) hat (by
        simp only [generate, genAddVxVy, h2, Res.error_bind])
    rcases read_gp_cases (cpu := cpu) x with ⟨h3, -⟩ | ⟨h3, h3'⟩
    · exact panics_generate (p := .unwrapNone) hat (by
        simp only [generate, genAddVxVy, h2, h3, Res.ok_bind, Res.error_bind])
    · exact panics_last (l := [_]) hat (by
        simp only [generate, genAddVxVy, h2, h3, Res.ok_bind]; rfl) fun t => ⟨_, exec_gp h3' t cpu _⟩
  case Sub x y =>
    rcases read_gp_cases (cpu := cpu) y with ⟨h2, -⟩ | ⟨h2, h2'⟩
    · exact panics_generate (p := .unwrapNone) hat (by
        simp only [generate, genSub, h2, Res.error_bind])
    rcases read_gp_cases (cpu := cpu) x with ⟨h3, -⟩ | ⟨h3, h3'⟩
    · exact panics_generate (p := .unwrapNone) hat (by
        simp only [generate, genSub, h2, h3, Res.ok_bind, Res.error_bind])
    · exact panics_last (l := [_]) hat (by
        simp only [generate, genSub, h2, h3, Res.ok_bind]; rfl) fun t => ⟨_, exec_gp h3' t cpu _⟩
  case Subn x y =>
    rcases read_gp_cases (cpu := cpu) y with ⟨h2, -⟩ | ⟨h2, h2'⟩
    · exact panics_generate (p := .unwrapNone) hat (by
        simp only [generate, genSubn, h2, Res.error_bind])
    rcases read_gp_cases (cpu := cpu) x with ⟨h3, -⟩ | ⟨h3, h3'⟩
    · exact panics_generate (p := .unwrapNone) hat (by
        simp only [generate, genSubn, h2, h3, Res.ok_bind, Res.error_bind])
    · exact panics_last (l := [_]) hat (by
        simp only [generate, genSubn, h2, h3, Res.ok_bind]; rfl) fun t => ⟨_, exec_gp h3' t cpu _⟩
  case Shl x y =>
    rcases read_gp_cases (cpu := cpu) x with ⟨h3, -⟩ | ⟨h3, h3'⟩
    · exact panics_generate (p := .unwrapNone) hat (by
        simp only [generate, genShl, h3, Res.error_bind])
    · exact panics_exec hat (by simp only [generate, genShl, h3, Res.ok_bind]; rfl)
        fun t => exec_gp_Vf t cpu _ _
  case Shr x y =>
    rcases read_gp_cases (cpu := cpu) x with ⟨h3, -⟩ | ⟨h3, h3'⟩
    · exact panics_generate (p := .unwrapNone) hat (by
        simp only [generate, genShr, h3, Res.error_bind])
    · exact panics_exec hat (by simp only [generate, genShr, h3, Res.ok_bind]; rfl)
        fun t => exec_gp_Vf t cpu _ _
  case ReadRegistersFromMemory x =>
    by_cases ho : b.overflowChecks = true ∧ 65536 ≤ cpu.i.toNat + num x
    · have hg : ∃ p, generate b e cpu (.ReadRegistersFromMemory x) = .error p := by
        simp only [generate, genReadRegisters]
        rw [regRange_eq, mapM_map]
        refine mapM_error _ _ ⟨num x, List.mem_range.2 (Nat.lt_succ_self _), .overflow, ?_⟩
        rw [Res.ok_bind, asUsize_eq_num, regOf_num, addU16_panic (addr_panics ho)]
        rfl
      obtain ⟨p, hp⟩ := hg
      exact panics_generate hat hp
    · obtain rfl := hr.resolve_right ho
      exact panics_exec hat (readRegs_gen hv fun hc => Nat.lt_of_not_le fun h => ho ⟨hc, h⟩)
        fun t => exec_loads_panic t _ cpu
  case StoreRegistersToMemory x =>
    have hg : ∃ p, generate b e cpu (.StoreRegistersToMemory x) = .error p := by
      simp only [generate, genStoreRegisters]
      rw [regRange_eq, mapM_map]
      refine mapM_error _ _ ⟨num x, List.mem_range.2 (Nat.lt_succ_self _), ?_⟩
      rw [Res.ok_bind, regOf_num]
      rcases read_gp_cases (cpu := cpu) x with ⟨h3, -⟩ | ⟨h3, h3'⟩
      · rw [h3]; exact ⟨_, rfl⟩
      · rw [h3, Res.ok_bind, asUsize_eq_num, addU16_panic (addr_panics (hr.resolve_left h3'))]
        exact ⟨_, rfl⟩
    obtain ⟨p, hp⟩ := hg
    exact panics_generate hat hp

/-- A successful step. -/
theorem step_inv {op : Opcode} {cpu' : Chip8 B R} (hat : At b cpu op)
    (hv : BusView b cpu.address_space mem) (hw : WellFormed cpu) (hs : StepsTo b e cpu cpu') :
    Runs b cpu op ∧ ∃ bus, writeAll b cpu.address_space (writes cpu op) = .ok bus ∧
      cpu' = { after e mem cpu op with address_space := bus } := by
  unfold StepsTo at hs
  by_cases hr : Runs b cpu op
  · refine ⟨hr, ?_⟩
    have h := step_ok (e := e) hat hr (fun _ => hv) (fun _ => hw)
    unfold StepWrites at h
    rw [hs] at h
    cases hb : writeAll b cpu.address_space (writes cpu op) with
    | error p => rw [hb] at h; cases h
    | ok bus =>
      rw [hb] at h
      refine ⟨bus, rfl, ?_⟩
      simpa [Except.map] using h
  · obtain ⟨p, hp⟩ := step_panics (e := e) hat hv hr
    rw [hs] at hp
    cases hp

/-- An instruction without memory writes. -/
theorem step_to {op : Opcode} (hat : At b cpu op) (hr : Runs b cpu op)
    (hv : (∃ x, op = .ReadRegistersFromMemory x) → BusView b cpu.address_space mem)
    (hw : op = .Ret ∨ (∃ a, op = .Call a) → WellFormed cpu) (hn : writes cpu op = []) :
    StepsTo b e cpu (after e mem cpu op) := by
  have h := step_ok (e := e) hat hr hv hw
  rw [hn] at h
  unfold StepWrites at h
  unfold StepsTo
  rw [h]
  have : (after e mem cpu op).address_space = cpu.address_space := by
    cases op <;> first | rfl | (simp only [after]; split <;> rfl)
  show Except.ok _ = _
  rw [← this]

omit [Addressable B] in
theorem advance_pc (c : Chip8 B R) (n : Nat) :
    (advance c n).pc = BitVec.ofNat 16 (c.pc.toNat + n) := rfl

omit [Addressable B] in
/-- Reading the registers of an updated state. -/
theorem V_setV (c : Chip8 B R) {x : GpRegisters} (hx : x ≠ .Vf) (v : Byte) (y : GpRegisters) :
    V (setV c x v) y = if y = x then v else V c y := by
  have hx := num_lt_15 hx
  unfold V setV
  simp only [Vector.getElem?_setIfInBounds]
  by_cases h : y = x
  · subst h; simp [hx]
  · rw [if_neg h, if_neg (fun h' => h (num_inj h'.symm))]

end Verif.Chip8
