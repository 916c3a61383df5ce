import Verif.Proofs.LiveChip8
import Verif.Proofs.LivePanic
import Verif.Spec.LiveChip8Panic

/-!
# Instructions and runs of the CHIP-8 that panic, as trees of bus calls
-/

namespace Verif.Chip8

open Verif Verif.Spec.Chip8 Verif.Spec.Live Verif.Live Verif.Live.Bus
open Verif.Mos (asked_bind_ok asked_lift)
open Verif.Spec.Mos (writeAll)

variable {R : Type} {b : Build} {e : Env}

/-- Neither a store nor an increment of a timer. -/
def isCalm : Microcode → Bool
  | .WriteMemory _ _ => false
  | .Inc8bitRegister (.TimerRegisters _) _ => false
  | _ => true

/-- The microcode of an instruction: stores only, or no store. -/
def Shape (mcs : List Microcode) : Prop :=
  (∃ ws : List (Word × Byte), mcs = ws.map fun w => .WriteMemory w.1 w.2) ∨ ∀ mc ∈ mcs, isCalm mc = true

theorem shape_generate {c : Chip8 Unit R} {who : Copy} {op : Opcode} {l : List Call} {mcs : List Microcode}
    (h : Asked (Live.generate b e (onBus c who) op) l (.ok mcs)) : Shape mcs := by
  cases op with
  | Drw x y n =>
    simp only [Live.generate, Live.genDrw] at h
    obtain ⟨_, _, sp, rfl, -, h⟩ := asked_bind_ok.1 h
    obtain ⟨_, _, vx, rfl, -, h⟩ := asked_bind_ok.1 h
    obtain ⟨_, _, vy, rfl, -, h⟩ := asked_bind_ok.1 h
    obtain ⟨_, _, s, rfl, h1, h⟩ := asked_bind_ok.1 h
    simp only [pure_eq, asked_done, Except.ok.injEq] at h
    rw [h.2]
    have := drw_pixels _ _ _ _ _ _ _ (asked_lift.1 h1).2 (by simp)
    refine .inr fun mc hm => ?_
    rcases List.mem_append.1 hm with hm | hm
    · obtain ⟨_, _, hh⟩ := this mc hm
      rw [hh]; rfl
    · rw [List.mem_singleton.1 hm]; rfl
  | ReadRegistersFromMemory x =>
    simp only [Live.generate, Live.genReadRegisters] at h
    refine .inr fun mc hm => ?_
    obtain ⟨r, -, l', h'⟩ := asked_mapCalls h mc hm
    obtain ⟨_, _, reg, rfl, -, h'⟩ := asked_bind_ok.1 h'
    obtain ⟨_, _, idx, rfl, -, h'⟩ := asked_bind_ok.1 h'
    obtain ⟨_, _, val, rfl, -, h'⟩ := asked_bind_ok.1 h'
    simp only [pure_eq, asked_done, Except.ok.injEq] at h'
    rw [h'.2]; rfl
  | LdBcd x =>
    simp only [Live.generate, genLdBcd] at h
    obtain ⟨-, h⟩ := asked_lift.1 h
    obtain ⟨v, -, h⟩ := bind_inv h
    obtain ⟨i1, h1, h⟩ := bind_inv h
    obtain ⟨i2, h2, h⟩ := bind_inv h
    cases h
    exact .inl ⟨[(_, _), (_, _), (_, _)], rfl⟩
  | StoreRegistersToMemory x =>
    simp only [Live.generate, genStoreRegisters, regRange_eq] at h
    obtain ⟨-, h⟩ := asked_lift.1 h
    rw [mapM_map] at h
    have key : ∀ (ks : List Nat) (ms : List Microcode),
        (ks.mapM fun k => (do
          let reg ← (.ok (regOf k) : Res GpRegisters)
          let v ← readGpRegister (onBus c who) reg
          let a ← addU16 b (onBus c who).i (BitVec.ofNat 16 reg.asUsize)
          .ok (Microcode.WriteMemory a v))) = .ok ms →
        ∃ ws : List (Word × Byte), ms = ws.map fun w => .WriteMemory w.1 w.2 := by
      intro ks
      induction ks with
      | nil => intro ms hf; cases hf; exact ⟨[], rfl⟩
      | cons k ks ih =>
        intro ms hf
        rw [List.mapM_cons, Res.ok_bind] at hf
        obtain ⟨y, h1, hf⟩ := bind_inv hf
        obtain ⟨ys, hys, hf⟩ := bind_inv hf
        obtain ⟨v, -, h1⟩ := bind_inv h1
        obtain ⟨a, h2, h1⟩ := bind_inv h1
        cases h1
        cases hf
        obtain ⟨ws, rfl⟩ := ih ys hys
        exact ⟨(a, v) :: ws, rfl⟩
    exact .inl (key (List.range (num x + 1)) _ h)
  | Skp x =>
    simp only [Live.generate, genSkp] at h
    obtain ⟨-, h⟩ := asked_lift.1 h
    obtain ⟨v, -, h⟩ := bind_inv h
    refine .inr ?_
    revert h
    rcases (onBus c who).interrupt with _ | ⟨key⟩
    · rintro ⟨⟩; simp
    · simp only
      split <;> (rintro ⟨⟩; simp [incPc2, isCalm])
  | Sknp x =>
    simp only [Live.generate, genSknp] at h
    obtain ⟨-, h⟩ := asked_lift.1 h
    obtain ⟨v, -, h⟩ := bind_inv h
    refine .inr ?_
    revert h
    rcases (onBus c who).interrupt with _ | ⟨key⟩
    · rintro ⟨⟩; simp [incPc2, isCalm]
    · simp only
      split <;> (rintro ⟨⟩; simp [incPc2, isCalm])
  | LdK x =>
    simp only [Live.generate, genLdK, pure_eq, asked_done, Except.ok.injEq] at h
    rw [h.2]
    refine .inr ?_
    rcases (onBus c who).interrupt with _ | ⟨key⟩ <;> simp [writeGp, isCalm]
  | SeImmediate x v =>
    simp only [Live.generate, genSeImmediate] at h
    obtain ⟨-, h⟩ := asked_lift.1 h
    obtain ⟨v, -, h⟩ := bind_inv h
    refine .inr ?_
    split at h <;> (cases h; simp [incPc2, isCalm])
  | SneImmediate x v =>
    simp only [Live.generate, genSneImmediate] at h
    obtain ⟨-, h⟩ := asked_lift.1 h
    obtain ⟨v, -, h⟩ := bind_inv h
    refine .inr ?_
    split at h <;> (cases h; simp [incPc2, isCalm])
  | SeVxVy x y =>
    simp only [Live.generate, genSeVxVy] at h
    obtain ⟨-, h⟩ := asked_lift.1 h
    obtain ⟨v, -, h⟩ := bind_inv h
    obtain ⟨w, -, h⟩ := bind_inv h
    refine .inr ?_
    split at h <;> (cases h; simp [incPc2, isCalm])
  | SneVxVy x y =>
    simp only [Live.generate, genSneVxVy] at h
    obtain ⟨-, h⟩ := asked_lift.1 h
    obtain ⟨v, -, h⟩ := bind_inv h
    obtain ⟨w, -, h⟩ := bind_inv h
    refine .inr ?_
    split at h <;> (cases h; simp [incPc2, isCalm])
  | _ =>
    simp only [Live.generate, genRet, genJpV0, genLdVxVy, genLdSoundTimer, genLdDelayTimer,
      genLdFromDelayTimer, genLdSpriteLocation, genAddI, genAddVxVy, genSub, genSubn, genAnd, genOr, genXor,
      genShl, genShr, pure_eq] at h
    obtain ⟨-, h⟩ := asked_done.1 h
    replace h := h.symm
    refine .inr ?_
    first
      | (cases h; simp [genCls, genCall, genJp, genLdAbsolute, genLdImmediate, genAddImmediate, genRnd, writeGp,
          isCalm]; done)
      | (obtain ⟨_, -, h⟩ := bind_inv h
         cases h; simp [writeGp, isCalm]; done)
      | (obtain ⟨_, -, h⟩ := bind_inv h
         obtain ⟨_, -, h⟩ := bind_inv h
         cases h; simp [writeGp, isCalm]; done)
      | (obtain ⟨_, -, h⟩ := bind_inv h
         obtain ⟨_, -, h⟩ := bind_inv h
         obtain ⟨_, -, h⟩ := bind_inv h
         cases h; simp [isCalm]; done)

/-- The same machine but for the timers. -/
def TimersOnly (c d : Chip8 Unit R) : Prop := ∃ dt st, d = { c with dt := dt, st := st }

/-- The range operation of the display depends on the display only. -/
theorem range_display (s s' : Nat × Nat) (v : Bool) : ∃ x : Res (Display → Display),
    ∀ {A : Type} (c : Chip8 A R), setDisplayRange b c s s' v = x.map fun f => { c with display := f c.display } := by
  simp only [setDisplayRange]
  cases mulUsize b s.2 Display.xMax with
  | error p => exact ⟨.error p, fun c => rfl⟩
  | ok r1 =>
  cases h2 : addUsize b r1 s.1 with
  | error p => exact ⟨.error p, fun c => by simp only [Res.ok_bind, h2]; rfl⟩
  | ok r2 =>
  cases subUsize b s'.2 s.2 with
  | error p => exact ⟨.error p, fun c => by simp only [Res.ok_bind, h2]; rfl⟩
  | ok r3 =>
  cases h4 : mulUsize b r3 Display.xMax with
  | error p => exact ⟨.error p, fun c => by simp only [Res.ok_bind, h2, h4]; rfl⟩
  | ok r4 =>
  cases subUsize b s'.1 s.1 with
  | error p => exact ⟨.error p, fun c => by simp only [Res.ok_bind, h2, h4]; rfl⟩
  | ok r5 =>
  cases h6 : addUsize b r4 r5 with
  | error p => exact ⟨.error p, fun c => by simp only [Res.ok_bind, h2, h4, h6]; rfl⟩
  | ok r6 =>
  cases h7 : addUsize b r6 1 with
  | error p => exact ⟨.error p, fun c => by simp only [Res.ok_bind, h2, h4, h6, h7]; rfl⟩
  | ok r7 => exact ⟨.ok fun d => d.fillRange r2 r7 v, fun c => by simp only [Res.ok_bind, h2, h4, h6, h7]; rfl⟩

/-- A calm microcode does the same on machines that differ in the timers. -/
theorem calm_same {t t' : Instant} {c d : Chip8 Unit R} (h : TimersOnly c d) {mc : Microcode} (hc : isCalm mc = true) :
    ∃ r r' : Res (Chip8 Unit R),
      (∀ who, Live.executeMut b t (onBus c who) mc = .done (r.map fun x => onBus x who)) ∧
      (∀ who, Live.executeMut b t' (onBus d who) mc = .done (r'.map fun x => onBus x who)) ∧
      ∀ x, r = .ok x → ∃ x', r' = .ok x' ∧ TimersOnly x x' := by
  obtain ⟨dt, st, rfl⟩ := h
  have fin : ∀ {x y : Chip8 Unit R}, TimersOnly x y → ∀ z, (.ok x : Res (Chip8 Unit R)) = .ok z →
      ∃ z', (.ok y : Res (Chip8 Unit R)) = .ok z' ∧ TimersOnly z z' := by
    intro x y h z hz
    cases hz
    exact ⟨y, rfl, h⟩
  cases mc with
  | WriteMemory a v => cases hc
  | Write8bitRegister reg v =>
    rcases reg with g | ⟨_ | _⟩
    · cases hg : setGp c.gp_registers g v with
      | error p =>
        refine ⟨.error p, .error p, fun who => ?_, fun who => ?_, fun x hx => by cases hx⟩ <;>
          simp only [Live.executeMut, write8, onBus, hg] <;> rfl
      | ok gp =>
        refine ⟨.ok { c with gp_registers := gp }, .ok { c with gp_registers := gp, dt := dt, st := st },
          fun who => ?_, fun who => ?_, fin ⟨dt, st, rfl⟩⟩ <;>
          simp only [Live.executeMut, write8, onBus, hg] <;> rfl
    · exact ⟨.ok { c with st := .withValue t v }, .ok { c with dt := dt, st := .withValue t' v },
        fun _ => rfl, fun _ => rfl, fin ⟨dt, .withValue t' v, rfl⟩⟩
    · exact ⟨.ok { c with dt := .withValue t v }, .ok { c with dt := .withValue t' v, st := st },
        fun _ => rfl, fun _ => rfl, fin ⟨.withValue t' v, st, rfl⟩⟩
  | Inc8bitRegister reg v =>
    rcases reg with g | ⟨_ | _⟩
    · cases hr : c.gp_registers[g.asUsize]? with
      | none =>
        refine ⟨.error .unwrapNone, .error .unwrapNone, fun who => ?_, fun who => ?_, fun x hx => by cases hx⟩ <;>
          simp only [Live.executeMut, inc8, readGpRegister, onBus, hr] <;> rfl
      | some w =>
        cases hg : setGp c.gp_registers g (w + v) with
        | error p =>
          refine ⟨.error p, .error p, fun who => ?_, fun who => ?_, fun x hx => by cases hx⟩ <;>
            simp only [Live.executeMut, inc8, readGpRegister, onBus, hr, Res.ok_bind, hg] <;> rfl
        | ok gp =>
          refine ⟨.ok { c with gp_registers := gp }, .ok { c with gp_registers := gp, dt := dt, st := st },
            fun who => ?_, fun who => ?_, fin ⟨dt, st, rfl⟩⟩ <;>
            simp only [Live.executeMut, inc8, readGpRegister, onBus, hr, Res.ok_bind, hg] <;> rfl
    · cases hc
    · cases hc
  | PushStack w =>
    cases hs : c.stack.write c.sp.read.toNat w with
    | error p =>
      refine ⟨.error p, .error p, fun who => ?_, fun who => ?_, fun x hx => by cases hx⟩ <;>
        simp only [Live.executeMut, pushStack, onBus, hs] <;> rfl
    | ok rs =>
      obtain ⟨r, s⟩ := rs
      cases r with
      | error m =>
        refine ⟨.error (.unwrapErr m), .error (.unwrapErr m), fun who => ?_, fun who => ?_,
          fun x hx => by cases hx⟩ <;>
          simp only [Live.executeMut, pushStack, onBus, hs] <;> rfl
      | ok _ =>
        refine ⟨.ok { c with stack := s }, .ok { c with stack := s, dt := dt, st := st },
          fun who => ?_, fun who => ?_, fin ⟨dt, st, rfl⟩⟩ <;>
          simp only [Live.executeMut, pushStack, onBus, hs] <;> rfl
  | SetDisplayRange p q v =>
    obtain ⟨x, hx⟩ := range_display (R := R) (b := b) p q v
    cases x with
    | error e =>
      refine ⟨.error e, .error e, fun who => ?_, fun who => ?_, fun x hx => by cases hx⟩ <;>
        simp only [Live.executeMut, hx] <;> rfl
    | ok f =>
      refine ⟨.ok { c with display := f c.display }, .ok { c with display := f c.display, dt := dt, st := st },
        fun who => ?_, fun who => ?_, fin ⟨dt, st, rfl⟩⟩ <;>
        simp only [Live.executeMut, hx] <;> rfl
  | Write16bitRegister reg v =>
    cases reg
    · exact ⟨.ok { c with i := v }, .ok { c with i := v, dt := dt, st := st }, fun _ => rfl, fun _ => rfl,
        fin ⟨dt, st, rfl⟩⟩
    · exact ⟨.ok { c with pc := v }, .ok { c with pc := v, dt := dt, st := st }, fun _ => rfl, fun _ => rfl,
        fin ⟨dt, st, rfl⟩⟩
  | Inc16bitRegister reg v =>
    cases reg
    · exact ⟨.ok { c with i := c.i + v }, .ok { c with i := c.i + v, dt := dt, st := st }, fun _ => rfl,
        fun _ => rfl, fin ⟨dt, st, rfl⟩⟩
    · exact ⟨.ok { c with pc := c.pc + v }, .ok { c with pc := c.pc + v, dt := dt, st := st }, fun _ => rfl,
        fun _ => rfl, fin ⟨dt, st, rfl⟩⟩
  | Dec8bitRegister reg v =>
    exact ⟨.ok c, .ok { c with dt := dt, st := st }, fun _ => rfl, fun _ => rfl, fin ⟨dt, st, rfl⟩⟩
  | Dec16bitRegister reg v =>
    exact ⟨.ok c, .ok { c with dt := dt, st := st }, fun _ => rfl, fun _ => rfl, fin ⟨dt, st, rfl⟩⟩
  | PopStack v => exact ⟨.ok c, .ok { c with dt := dt, st := st }, fun _ => rfl, fun _ => rfl, fin ⟨dt, st, rfl⟩⟩
  | KeyPress key =>
    exact ⟨.ok { c with interrupt := some (.KeyPress key) },
      .ok { c with interrupt := some (.KeyPress key), dt := dt, st := st }, fun _ => rfl, fun _ => rfl,
      fin ⟨dt, st, rfl⟩⟩
  | KeyRelease =>
    exact ⟨.ok { c with interrupt := none }, .ok { c with interrupt := none, dt := dt, st := st }, fun _ => rfl,
      fun _ => rfl, fin ⟨dt, st, rfl⟩⟩
  | SetDisplayPixel p v =>
    exact ⟨.ok { c with display := (c.display.writePixel p.1 p.2 v).1 },
      .ok { c with display := (c.display.writePixel p.1 p.2 v).1, dt := dt, st := st }, fun _ => rfl,
      fun _ => rfl, fin ⟨dt, st, rfl⟩⟩

/-- The microcode that has worked on the clone works on the machine itself, unless its bus refuses a store. -/
theorem own_executeAll {t t' : Instant} {who who' : Copy} (mcs : List Microcode)
    (hc : ∀ mc ∈ mcs, (∃ a v, mc = .WriteMemory a v) ∨ isCalm mc = true) :
    ∀ {c d : Chip8 Unit R} {l l' : List Call} {q : Chip8 Copy R} {r : Res (Chip8 Copy R)}, TimersOnly c d →
      Asked (Live.executeAll b t (onBus c who) mcs) l (.ok q) → Asked (Live.executeAll b t' (onBus d who') mcs) l' r →
      (∀ p, r = .error p → Refused who' (byteStores mcs) l' p) ∧
      ∀ q', r = .ok q' → ∃ x x', q = onBus x who ∧ q' = onBus x' who' ∧ TimersOnly x x' := by
  induction mcs with
  | nil =>
    intro c d l l' q r hT h h'
    simp only [Live.executeAll, pure_eq, asked_done] at h h'
    obtain ⟨-, h⟩ := h
    obtain ⟨-, rfl⟩ := h'
    cases h
    exact ⟨fun p hp => (by cases hp), fun q' hq => by cases hq; exact ⟨c, d, rfl, rfl, hT⟩⟩
  | cons mc mcs ih =>
    intro c d l l' q r hT h h'
    have ih := @ih fun m hm => hc m (by simp [hm])
    rcases hc mc (by simp) with ⟨a, v, rfl⟩ | hcalm
    · simp only [Live.executeAll, Live.executeMut, Live.writeMemory, Bus.put, write_bind, pure_eq, ok_bind,
        asked_write] at h h'
      obtain ⟨y, l₁, rfl, h⟩ := h
      obtain ⟨y', l₁', rfl, h'⟩ := h'
      cases y with
      | error msg =>
        simp only [unwrapResult, lift_eq, error_bind, asked_done] at h
        cases h.2
      | ok y =>
        simp only [unwrapResult, lift_eq, ok_bind] at h
        cases y' with
        | error msg =>
          simp only [unwrapResult, lift_eq, error_bind, asked_done] at h'
          obtain ⟨rfl, rfl⟩ := h'
          refine ⟨fun p hp => ?_, fun q' hq => by cases hq⟩
          cases hp
          exact ⟨[], a, v, byteStores mcs, [], msg, rfl, rfl, rfl, rfl⟩
        | ok y' =>
          simp only [unwrapResult, lift_eq, ok_bind] at h'
          obtain ⟨h1, h2⟩ := ih hT h h'
          refine ⟨fun p hp => ?_, h2⟩
          obtain ⟨before, a', v', rest, answers, e, g1, g2, rfl, rfl⟩ := h1 p hp
          exact ⟨(a, v) :: before, a', v', rest, y' :: answers, e, by simp [byteStores, g1], by simp [g2], rfl, rfl⟩
    · obtain ⟨x, x', hx, hx', hxx⟩ := calm_same (b := b) (t := t) (t' := t') hT hcalm
      simp only [Live.executeAll, hx, hx'] at h h'
      have hst : byteStores (mc :: mcs) = byteStores mcs := by
        cases mc <;> first | rfl | cases hcalm
      rw [hst]
      cases x with
      | error p =>
        simp only [Except.map, error_bind, asked_done] at h
        cases h.2
      | ok x =>
        obtain ⟨z, rfl, hz⟩ := hxx x rfl
        simp only [Except.map, ok_bind] at h h'
        exact ih hz h h'

/-- Calm microcode makes no call, and panics as on every bus. -/
theorem calm_executeAll {t : Instant} {who : Copy} (mcs : List Microcode) (hc : ∀ mc ∈ mcs, isCalm mc = true) :
    ∀ {c : Chip8 Unit R} {l : List Call} {p : Panic}, Asked (Live.executeAll b t (onBus c who) mcs) l (.error p) →
      l = [] ∧ ∀ (B : Type) [Addressable B] (bus : B), executeAll b t (onBus c bus) mcs = .error p := by
  induction mcs with
  | nil =>
    intro c l p h
    simp only [Live.executeAll, pure_eq, asked_done] at h
    cases h.2
  | cons mc mcs ih =>
    intro c l p h
    have ih := @ih fun m hm => hc m (by simp [hm])
    rcases plain_mc (b := b) t c mc with ⟨a, v, rfl⟩ | ⟨-, x, hx, hx'⟩
    · exact absurd (hc (.WriteMemory a v) (List.mem_cons_self ..)) Bool.false_ne_true
    · simp only [Live.executeAll, hx] at h
      cases x with
      | error p' =>
        simp only [Except.map, error_bind, asked_done] at h
        obtain ⟨rfl, h⟩ := h
        cases h
        exact ⟨rfl, fun B _ bus => by simp only [executeAll, hx']; rfl⟩
      | ok x =>
        simp only [Except.map, ok_bind] at h
        obtain ⟨h1, h2⟩ := ih h
        exact ⟨h1, fun B _ bus => by simp only [executeAll, hx']; exact h2 B bus⟩

/-- The calls of stores of which one is refused. -/
theorem stores_refused {t : Instant} {who : Copy} (mcs : List Microcode) (ws : List (Word × Byte))
    (hm : ∀ mc ∈ mcs, isCalm mc = true) (hn : ∀ (c : Chip8 Unit R) l p, ¬Asked (Live.executeAll b t (onBus c who) mcs) l (.error p)) :
    ∀ {c : Chip8 Unit R} {l : List Call} {p : Panic},
      Asked (Live.executeAll b t (onBus c who) ((ws.map fun w => .WriteMemory w.1 w.2) ++ mcs)) l (.error p) →
      Refused who ws l p := by
  induction ws with
  | nil =>
    intro c l p h
    exact absurd h (hn c l p)
  | cons w ws ih =>
    intro c l p h
    simp only [List.map_cons, List.cons_append, Live.executeAll, Live.executeMut, Live.writeMemory, Bus.put,
      write_bind, pure_eq, ok_bind, asked_write] at h
    obtain ⟨y, l₁, rfl, h⟩ := h
    cases y with
    | error msg =>
      simp only [unwrapResult, lift_eq, error_bind, asked_done] at h
      obtain ⟨rfl, h⟩ := h
      cases h
      exact ⟨[], w.1, w.2, ws, [], msg, rfl, rfl, rfl, rfl⟩
    | ok y =>
      simp only [unwrapResult, lift_eq, ok_bind] at h
      obtain ⟨before, a', v', rest, answers, e, g1, g2, rfl, rfl⟩ := ih h
      exact ⟨w :: before, a', v', rest, y :: answers, e, by simp [g1], by simp [g2], rfl, rfl⟩

theorem byteStores_writes (ws : List (Word × Byte)) :
    byteStores (ws.map fun w => .WriteMemory w.1 w.2) = ws := by
  induction ws with
  | nil => rfl
  | cons w ws ih => simp only [List.map_cons, byteStores, ih]

/-- The calls of one instruction that panics, and its panic. -/
theorem asked_next_panicked {c : Chip8 Unit R} {who : Copy} {l : List Call} {p : Panic}
    (h : Asked (Live.next b e (onBus c who)) l (.error p)) : OpcodePanicked b e who c l p := by
  unfold Live.next at h
  rcases asked_bind.1 h with ⟨l₁, l₂, op, rfl, h0, k1⟩ | ⟨p', he, h0⟩
  rotate_left
  · cases he
    have hnext : ∀ reads : List (Word × Byte), l = readCalls who reads → ∀ (B : Type) [Addressable B] (bus : B),
        (∀ q ∈ reads, Addressable.read b bus q.1 = .ok q.2) → next b e (onBus c bus) = .error p := by
      rintro reads rfl B _ bus hr
      unfold next
      rw [← interp_fetch c who bus, interp_asked (bus := bus) h0 hr]
      rfl
    rcases asked_fetch h0 with ⟨b0, _, rfl, -⟩ | ⟨b0, b1, rfl, -, -⟩
    · exact ⟨[(c.pc, b0)], .inl ⟨.inl ⟨by simp, ⟨_, rfl⟩⟩, rfl, hnext _ rfl⟩⟩
    · exact ⟨[(c.pc, b0), (BitVec.ofNat 16 (c.pc.toNat + 1), b1)], .inl ⟨.inl ⟨by simp, ⟨[], rfl⟩⟩, rfl,
        hnext _ rfl⟩⟩
  rcases asked_fetch h0 with ⟨_, _, -, hf⟩ | ⟨b0, b1, rfl, -, hd⟩
  · cases hf
  obtain ⟨x, hx, hx'⟩ := bind_inv hd.symm
  cases x with
  | error msg => cases hx'
  | ok op' =>
    cases hx'
    obtain ⟨hv, henc⟩ := C40_encode_decode _ _ _ hx
    have hfetch : ∀ (B : Type) [Addressable B] (bus : B),
        (∀ q ∈ [(c.pc, b0), (BitVec.ofNat 16 (c.pc.toNat + 1), b1)], Addressable.read b bus q.1 = .ok q.2) →
        fetch b (onBus c bus) = .ok op := fun B _ bus hr => by
      rw [← interp_fetch c who bus, interp_asked (bus := bus) (who := who)
        (rs := [(c.pc, b0), (BitVec.ofNat 16 (c.pc.toNat + 1), b1)]) h0 hr]
    have two : ∀ {rs : List (Word × Byte)} {B : Type} [Addressable B] {bus : B},
        (∀ q ∈ (c.pc, b0) :: (BitVec.ofNat 16 (c.pc.toNat + 1), b1) :: rs, Addressable.read b bus q.1 = .ok q.2) →
        fetch b (onBus c bus) = .ok op ∧ ∀ q ∈ rs, Addressable.read b bus q.1 = .ok q.2 := fun {rs B _ bus} hr =>
      ⟨hfetch B bus fun q hq => hr q (by
        simp only [List.mem_cons, List.not_mem_nil, or_false] at hq ⊢
        rcases hq with hq | hq
        · exact .inl hq
        · exact .inr (.inl hq)), fun q hq => hr q (by simp [hq])⟩
    rcases asked_bind.1 k1 with ⟨l₃, l₄, m, rfl, h1, k2⟩ | ⟨p', he, h1⟩
    rotate_left
    · cases he
      obtain ⟨rs, rfl, hr1⟩ := asked_follows_any (follows_generate c who op) h1
      refine ⟨_ :: _ :: rs, .inl ⟨.inr ⟨op, b0, b1, rs, hv, henc, prefix_of_ask hr1, rfl⟩, by simp [readCalls],
        fun B _ bus hr => ?_⟩⟩
      obtain ⟨g1, g2⟩ := two hr
      unfold next
      rw [g1, Res.ok_bind, ← interp_generate c bus who op, interp_asked (bus := bus) h1 g2]
      rfl
    obtain ⟨rs, rfl, hr1, hr2⟩ := asked_follows (follows_generate c who op) h1
    have hall := all_of_ask hr1 hr2
    rcases asked_bind.1 k2 with ⟨l₅, l₆, q, rfl, h2, k3⟩ | ⟨p', he, h2⟩
    · rw [pure_eq, asked_done] at k3
      cases k3.2
    cases he
    have hinc : ∀ (d : Chip8 Unit R) l p,
        ¬Asked (Live.executeAll b e.iterAt (onBus d who) [.Inc16bitRegister .ProgramCounter 2]) l (.error p) := by
      intro d l p h
      simp only [Live.executeAll, Live.executeMut, pure_eq, ok_bind, asked_done] at h
      cases h.2
    rcases shape_generate h1 with ⟨ws, rfl⟩ | hcalm
    · have href := stores_refused _ ws (by simp [isCalm]) hinc h2
      have hst := stores_generate h1
      rw [byteStores_writes] at hst
      have hrs : rs = [] := by
        have hne : ws ≠ [] := by
          rintro rfl
          obtain ⟨before, a, v, rest, _, _, h, -⟩ := href
          simp at h
        have hlen : storeCount op ≠ 0 := by
          intro h0
          rw [h0] at hst
          exact hne (List.map_eq_nil_iff.1 (hst.trans rfl))
        have : readCount op = 0 := by
          cases op <;> first | rfl | exact absurd rfl hlen
        rw [this] at hall
        exact List.map_eq_nil_iff.1 (hall.trans rfl)
      subst hrs
      refine ⟨_, .inr ⟨op, b0, b1, ws, _, hv, henc, rfl, hst, fun B _ bus => ?_, href, by simp [readCalls]⟩⟩
      rw [← interp_generate c bus who op]
      exact interp_asked (bus := bus) h1 (by simp)
    · obtain ⟨rfl, hex⟩ := calm_executeAll _ (fun mc hm => by
        rcases List.mem_append.1 hm with hm | hm
        · exact hcalm mc hm
        · rw [List.mem_singleton.1 hm]; rfl) h2
      refine ⟨_ :: _ :: rs, .inl ⟨.inr ⟨op, b0, b1, rs, hv, henc, by rw [hall]; exact List.prefix_rfl, rfl⟩,
        by simp [readCalls],
        fun B _ bus hr => ?_⟩⟩
      obtain ⟨g1, g2⟩ := two hr
      unfold next
      rw [g1, Res.ok_bind, ← interp_generate c bus who op, interp_asked (bus := bus) h1 g2, Res.ok_bind]
      show (executeAll b e.iterAt (onBus c bus) (m ++ [.Inc16bitRegister .ProgramCounter 2]) >>= _) = _
      rw [hex B bus]
      rfl

/-- The microcode of an instruction that has returned, on the clone. -/
theorem asked_next_microcode {c : Chip8 Unit R} {who : Copy} {l : List Call} {mcs : List Microcode}
    {q : Chip8 Copy R} (h : Asked (Live.next b e (onBus c who)) l (.ok (mcs, q))) :
    (∃ l', Asked (Live.executeAll b e.iterAt (onBus c who) mcs) l' (.ok q)) ∧
    ∀ mc ∈ mcs, (∃ a v, mc = .WriteMemory a v) ∨ isCalm mc = true := by
  unfold Live.next at h
  obtain ⟨_, _, op, rfl, h0, k1⟩ := asked_bind_ok.1 h
  obtain ⟨_, _, m, rfl, h1, k2⟩ := asked_bind_ok.1 k1
  obtain ⟨_, _, q', rfl, h2, k3⟩ := asked_bind_ok.1 k2
  rw [pure_eq, asked_done] at k3
  obtain ⟨rfl, k3⟩ := k3
  simp only [Except.ok.injEq, Prod.mk.injEq] at k3
  obtain ⟨rfl, rfl⟩ := k3
  refine ⟨⟨_, h2⟩, fun mc hm => ?_⟩
  rcases List.mem_append.1 hm with hm | hm
  · rcases shape_generate h1 with ⟨ws, rfl⟩ | hcalm
    · obtain ⟨w, -, rfl⟩ := List.mem_map.1 hm
      exact .inl ⟨_, _, rfl⟩
    · exact .inr (hcalm mc hm)
  · rw [List.mem_singleton.1 hm]
    exact .inr rfl

/-- The calls of a `run` that panics. -/
theorem asked_runLoop_error (env : Nat → Env) (n : Nat) : ∀ (k : Nat) (it c : Chip8 Unit R) (l : List Call)
    (p : Panic), TimersOnly it c →
    Asked (Live.runLoop b env n k (onBus it .iterator) (onBus c .own)) l (.error p) →
    RanIntoOpcode b env n k it c l p := by
  induction n with
  | zero =>
    intro k it c l p _ h
    simp only [Live.runLoop, pure_eq, asked_done] at h
    cases h.2
  | succ n ih =>
    intro k it c l p hT h
    unfold Live.runLoop at h
    rcases asked_bind.1 h with ⟨_, _, ⟨mcs, it'⟩, rfl, h0, k1⟩ | ⟨_, he, h0⟩
    rotate_left
    · cases he
      exact .clone (asked_next_panicked h0)
    obtain ⟨it₁, reads, vs, rfl, hone, hvs, rfl⟩ := asked_next h0
    obtain ⟨⟨l', hex⟩, hmc⟩ := asked_next_microcode h0
    rcases asked_bind.1 k1 with ⟨_, _, c₁, rfl, h1, k2⟩ | ⟨_, he, h1⟩
    rotate_left
    · cases he
      have := RanIntoOpcode.own (n := n) (c := c) hone hvs ((own_executeAll mcs hmc hT hex h1).1 _ rfl)
      simp only [List.append_assoc]
      exact this
    obtain ⟨ws, -, -, hok⟩ := asked_executeAll _ _ c .own _ _ h1
    obtain ⟨c₂, vs', rfl, hvs', rfl, hF⟩ := hok _ rfl
    obtain ⟨x, x', h3, h4, hT'⟩ := (own_executeAll mcs hmc hT hex h1).2 _ rfl
    have e1 : it₁ = x := by
      have := congrArg rest h3
      exact this
    have e2 : c₂ = x' := by
      have := congrArg rest h4
      exact this
    subst e1 e2
    have := RanIntoOpcode.step hone hF hvs hvs' (ih _ _ _ _ _ hT' k2)
    simp only [List.append_assoc]
    exact this

end Verif.Chip8
