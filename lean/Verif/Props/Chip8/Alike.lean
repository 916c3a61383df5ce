import Verif.Proofs.Chip8Range
import Verif.Model.Chip8.Cpu
import Verif.Spec.Chip8Alike
import Verif.Proofs.BusAlike
import Verif.Props.Mos.Alike

/-!
# Property C81 for the CHIP-8
-/

namespace Verif.Props

open Verif Verif.Chip8 Verif.Spec Verif.Spec.Chip8

variable {B₁ B₂ R : Type} [Addressable B₁] [Addressable B₂] {b : Build}

/-- `c` with another bus. -/
def onBus {B : Type} (c : Chip8 Unit R) (bus : B) : Chip8 B R where
  stack := c.stack
  address_space := bus
  dt := c.dt
  st := c.st
  pc := c.pc
  sp := c.sp
  i := c.i
  gp_registers := c.gp_registers
  display := c.display
  interrupt := c.interrupt
  rng := c.rng

theorem eq_onBus {B : Type} (c : Chip8 B R) : c = onBus (rest c) c.address_space := rfl

theorem fetch_alike (c : Chip8 Unit R) {x : B₁} {y : B₂} (h : Alike b x y) :
    fetch b (onBus c x) = fetch b (onBus c y) := by
  unfold fetch
  show (Addressable.read b x c.pc).bind _ = (Addressable.read b y c.pc).bind _
  rw [h.read c.pc]
  congr 1
  funext b0
  show (addU16 b c.pc 1).bind _ = (addU16 b c.pc 1).bind _
  congr 1
  funext pc1
  show (Addressable.read b x pc1).bind _ = (Addressable.read b y pc1).bind _
  rw [h.read pc1]

theorem generate_alike (e : Env) (c : Chip8 Unit R) {x : B₁} {y : B₂} (h : Alike b x y)
    (op : Opcode) : generate b e (onBus c x) op = generate b e (onBus c y) op := by
  have hread : (fun a => Addressable.read b x a) = fun a => Addressable.read b y a := funext h.read
  cases op with
  | Drw r s n =>
    have : drwSprite b (onBus c x) n = drwSprite b (onBus c y) n := by
      unfold drwSprite
      show (addU16 b c.i (u16OfU8 n)).bind _ = (addU16 b c.i (u16OfU8 n)).bind _
      congr 1
      funext stop
      show List.mapM (fun addr => Addressable.read b x (BitVec.ofNat 16 addr)) _ =
        List.mapM (fun addr => Addressable.read b y (BitVec.ofNat 16 addr)) _
      congr 1
      funext a
      exact h.read _
    show (drwSprite b (onBus c x) n).bind _ = (drwSprite b (onBus c y) n).bind _
    rw [this]
    rfl
  | ReadRegistersFromMemory r =>
    show List.mapM _ _ = List.mapM _ _
    congr 1
    funext q
    congr 1
    funext reg
    show (addU16 b c.i _).bind _ = (addU16 b c.i _).bind _
    congr 1
    funext i
    show (Addressable.read b x i).bind _ = (Addressable.read b y i).bind _
    rw [h.read i]
  | _ => rfl

theorem execute_alike (t : Instant) (c : Chip8 Unit R) {x : B₁} {y : B₂} (h : Alike b x y)
    (mc : Microcode) :
    (∃ p, executeMut b t (onBus c x) mc = .error p ∧ executeMut b t (onBus c y) mc = .error p) ∨
    ∃ c' x' y', executeMut b t (onBus c x) mc = .ok (onBus c' x') ∧
      executeMut b t (onBus c y) mc = .ok (onBus c' y') ∧ Alike b x' y' := by
  have key : ∀ (f : Res (Chip8 Unit R)),
      executeMut b t (onBus c x) mc = f.map (fun c => onBus c x) →
      executeMut b t (onBus c y) mc = f.map (fun c => onBus c y) →
      (∃ p, executeMut b t (onBus c x) mc = .error p ∧ executeMut b t (onBus c y) mc = .error p) ∨
      ∃ c' x' y', executeMut b t (onBus c x) mc = .ok (onBus c' x') ∧
        executeMut b t (onBus c y) mc = .ok (onBus c' y') ∧ Alike b x' y' := by
    intro f h1 h2
    cases f with
    | error p => exact .inl ⟨p, h1, h2⟩
    | ok d => exact .inr ⟨d, x, y, h1, h2, h⟩
  cases mc with
  | WriteMemory a v =>
    simp only [executeMut, writeMemory]
    rcases h.write a v with ⟨p, h1, h2⟩ | ⟨r, x', y', h1, h2, h'⟩
    · refine .inl ⟨p, ?_, ?_⟩
      · show (Addressable.write b x a v).bind _ = _; rw [h1]; rfl
      · show (Addressable.write b y a v).bind _ = _; rw [h2]; rfl
    · cases r with
      | error s =>
        refine .inl ⟨.unwrapErr s, ?_, ?_⟩
        · show (Addressable.write b x a v).bind _ = _; rw [h1]; rfl
        · show (Addressable.write b y a v).bind _ = _; rw [h2]; rfl
      | ok u =>
        refine .inr ⟨c, x', y', ?_, ?_, h'⟩
        · show (Addressable.write b x a v).bind _ = _; rw [h1]; rfl
        · show (Addressable.write b y a v).bind _ = _; rw [h2]; rfl
  | Write8bitRegister r v =>
    cases r with
    | GpRegisters r =>
      refine key ((setGp c.gp_registers r v).map fun gp => { c with gp_registers := gp }) ?_ ?_ <;>
      · show (setGp c.gp_registers r v).bind _ = _
        cases setGp c.gp_registers r v <;> rfl
    | TimerRegisters r =>
      cases r with
      | Delay => exact key (.ok { c with dt := ClockDecrementing.withValue t v }) rfl rfl
      | Sound => exact key (.ok { c with st := ClockDecrementing.withValue t v }) rfl rfl
  | Inc8bitRegister r v =>
    cases r with
    | GpRegisters r =>
      refine key ((readGpRegister c r).bind fun w =>
        (setGp c.gp_registers r (w + v)).map fun gp => { c with gp_registers := gp }) ?_ ?_ <;>
      · show (readGpRegister c r).bind _ = _
        cases readGpRegister c r with
        | error p => rfl
        | ok w =>
          show (setGp c.gp_registers r (w + v)).bind _ =
            Except.map _ ((setGp c.gp_registers r (w + v)).map _)
          cases setGp c.gp_registers r (w + v) <;> rfl
    | TimerRegisters r =>
      cases r with
      | Delay =>
        refine key ((c.dt.read b t).map fun w =>
          { c with dt := ClockDecrementing.withValue t (w + v) }) ?_ ?_ <;>
        · show (c.dt.read b t).bind _ = _
          cases c.dt.read b t <;> rfl
      | Sound =>
        refine key ((c.st.read b t).map fun w =>
          { c with st := ClockDecrementing.withValue t (w + v) }) ?_ ?_ <;>
        · show (c.st.read b t).bind _ = _
          cases c.st.read b t <;> rfl
  | Dec8bitRegister r v => exact key (.ok c) rfl rfl
  | Write16bitRegister r v =>
    cases r with
    | I => exact key (.ok { c with i := v }) rfl rfl
    | ProgramCounter => exact key (.ok { c with pc := v }) rfl rfl
  | Inc16bitRegister r v =>
    cases r with
    | I => exact key (.ok { c with i := c.i + v }) rfl rfl
    | ProgramCounter => exact key (.ok { c with pc := c.pc + v }) rfl rfl
  | Dec16bitRegister r v => exact key (.ok c) rfl rfl
  | PushStack v =>
    refine key ((c.stack.write c.sp.read.toNat v).bind fun p =>
      (unwrapResult p.1).map fun _ => { c with stack := p.2 }) ?_ ?_ <;>
    · show (c.stack.write c.sp.read.toNat v).bind _ = _
      cases c.stack.write c.sp.read.toNat v with
      | error p => rfl
      | ok p =>
        obtain ⟨r, st⟩ := p
        cases r <;> rfl
  | PopStack v => exact key (.ok c) rfl rfl
  | KeyPress k => exact key (.ok { c with interrupt := some (.KeyPress k) }) rfl rfl
  | KeyRelease => exact key (.ok { c with interrupt := none }) rfl rfl
  | SetDisplayPixel q v => exact key (.ok { c with display := (c.display.writePixel q.1 q.2 v).1 }) rfl rfl
  | SetDisplayRange p q v =>
    refine key ((rangeCounts b p q).map fun n => { c with
      display := c.display.fillRange n.1 n.2 v }) ?_ ?_ <;>
    · simp only [executeMut, setDisplayRange_eq]
      cases rangeCounts b p q <;> rfl

theorem executeAll_alike (t : Instant) (mcs : List Microcode) : ∀ (c : Chip8 Unit R) {x : B₁} {y : B₂},
    Alike b x y →
    (∃ p, executeAll b t (onBus c x) mcs = .error p ∧ executeAll b t (onBus c y) mcs = .error p) ∨
    ∃ c' x' y', executeAll b t (onBus c x) mcs = .ok (onBus c' x') ∧
      executeAll b t (onBus c y) mcs = .ok (onBus c' y') ∧ Alike b x' y' := by
  induction mcs with
  | nil => intro c x y h; exact .inr ⟨c, x, y, rfl, rfl, h⟩
  | cons mc mcs ih =>
    intro c x y h
    simp only [executeAll]
    rcases execute_alike t c h mc with ⟨p, h1, h2⟩ | ⟨c', x', y', h1, h2, h'⟩
    · rw [h1, h2]; exact .inl ⟨p, rfl, rfl⟩
    · rw [h1, h2]; exact ih c' h'

theorem next_alike (e : Env) (c : Chip8 Unit R) {x : B₁} {y : B₂} (h : Alike b x y) :
    (∃ p, next b e (onBus c x) = .error p ∧ next b e (onBus c y) = .error p) ∨
    ∃ mcs c' x' y', next b e (onBus c x) = .ok (mcs, onBus c' x') ∧
      next b e (onBus c y) = .ok (mcs, onBus c' y') ∧ Alike b x' y' := by
  unfold next
  rw [fetch_alike c h]
  cases fetch b (onBus c y) with
  | error p => exact .inl ⟨p, rfl, rfl⟩
  | ok op =>
    simp only [Res.ok_bind]
    rw [generate_alike e c h op]
    cases generate b e (onBus c y) op with
    | error p => exact .inl ⟨p, rfl, rfl⟩
    | ok mcs =>
      simp only [Res.ok_bind]
      rcases executeAll_alike e.iterAt (mcs ++ [.Inc16bitRegister .ProgramCounter 2]) c h with
        ⟨p, h1, h2⟩ | ⟨c', x', y', h1, h2, h'⟩
      · rw [h1, h2]; exact .inl ⟨p, rfl, rfl⟩
      · rw [h1, h2]; exact .inr ⟨_, c', x', y', rfl, rfl, h'⟩

theorem runLoop_alike (env : Nat → Env) (n : Nat) : ∀ (k : Nat) (d c : Chip8 Unit R) {u x : B₁} {v y : B₂},
    Alike b u v → Alike b x y →
    (∃ p, runLoop b env n k (onBus d u) (onBus c x) = .error p ∧
      runLoop b env n k (onBus d v) (onBus c y) = .error p) ∨
    ∃ c' x' y', runLoop b env n k (onBus d u) (onBus c x) = .ok (onBus c' x') ∧
      runLoop b env n k (onBus d v) (onBus c y) = .ok (onBus c' y') ∧ Alike b x' y' := by
  induction n with
  | zero => intro k d c u x v y _ h; exact .inr ⟨c, x, y, rfl, rfl, h⟩
  | succ n ih =>
    intro k d c u x v y h' h
    simp only [runLoop]
    rcases next_alike (env k) d h' with ⟨p, h1, h2⟩ | ⟨mcs, d', u', v', h1, h2, h3⟩
    · rw [h1, h2]; exact .inl ⟨p, rfl, rfl⟩
    · rw [h1, h2]
      simp only [Res.ok_bind]
      rcases executeAll_alike (env k).foldAt mcs c h with ⟨p, h4, h5⟩ | ⟨c', x', y', h4, h5, h6⟩
      · rw [h4, h5]; exact .inl ⟨p, rfl, rfl⟩
      · rw [h4, h5]; exact ih (k + 1) d' c' h3 h6

/-- `run` for any number of instructions of two CHIP-8s that are equal but for their buses, which
answer alike, in the same world: the same panic, or CHIP-8s that are equal but for their buses, which
answer alike. -/
theorem C81_chip8_run (env : Nat → Env) (n : Nat) {c₁ : Chip8 B₁ R} {c₂ : Chip8 B₂ R}
    (hr : rest c₁ = rest c₂) (ha : Alike b c₁.address_space c₂.address_space) :
    (∃ p, run b env c₁ n = .error p ∧ run b env c₂ n = .error p) ∨
    ∃ d₁ d₂, run b env c₁ n = .ok (.ready d₁) ∧ run b env c₂ n = .ok (.ready d₂) ∧
      rest d₁ = rest d₂ ∧ Alike b d₁.address_space d₂.address_space := by
  have h2 : c₂ = onBus (rest c₁) c₂.address_space := by rw [hr]; rfl
  have := runLoop_alike env n 0 (rest c₁) (rest c₁) ha ha
  rw [← h2, ← eq_onBus c₁] at this
  unfold run
  rcases this with ⟨p, h3, h4⟩ | ⟨c', x', y', h3, h4, h5⟩
  · rw [h3, h4]; exact .inl ⟨p, rfl, rfl⟩
  · rw [h3, h4]; exact .inr ⟨_, _, rfl, rfl, rfl, h5⟩

/-- Any CHIP-8, with its RAM in one piece and cut in two. -/
example (env : Nat → Env) (c : Chip8 Unit R) (n : Nat) :
    ((run b env (onBus c wholeMap) n).map fun s => rest s.unwrap) =
      (run b env (onBus c cutMap) n).map fun s => rest s.unwrap := by
  rcases C81_chip8_run (b := b) env n (c₁ := onBus c wholeMap) (c₂ := onBus c cutMap) rfl (cut_alike b) with
    ⟨p, h1, h2⟩ | ⟨d₁, d₂, h1, h2, h3, -⟩
  · rw [h1, h2]
  · rw [h1, h2]; exact congrArg Except.ok h3

end Verif.Props
