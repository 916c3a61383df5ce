import Verif.Model.Chip8.Cpu

/-!
# Clocks and timers compared
-/

namespace Verif.Spec.Chip8

open Verif Verif.Chip8

/-- Two timers that show the same at every instant from `t` on. -/
def SameFrom (b : Build) (t : Instant) (r r' : ClockDecrementing) : Prop :=
  ∀ now, t ≤ now → r.read b now = r'.read b now

/-- Two machines that differ at most in how their timers are kept: from `t` on the timers show the
same. -/
structure SameTimers {B R : Type} (b : Build) (t : Instant) (c c' : Chip8 B R) : Prop where
  stack : c'.stack = c.stack
  address_space : c'.address_space = c.address_space
  pc : c'.pc = c.pc
  sp : c'.sp = c.sp
  i : c'.i = c.i
  gp_registers : c'.gp_registers = c.gp_registers
  display : c'.display = c.display
  interrupt : c'.interrupt = c.interrupt
  rng : c'.rng = c.rng
  dt : SameFrom b t c.dt c'.dt
  st : SameFrom b t c.st c'.st

/-- Two machines that differ at most in the sound timer. -/
def ButSound {B R : Type} (c c' : Chip8 B R) : Prop := ∃ s, c' = { c with st := s }

/-- During this step the clock never shows an instant before `t`. -/
def NotBefore (t : Instant) (e : Env) : Prop := t ≤ e.readAt ∧ t ≤ e.iterAt ∧ t ≤ e.foldAt

/-- A machine whose timers were all set `d` later. -/
def laterCpu {B R : Type} (d : Nat) (c : Chip8 B R) : Chip8 B R :=
  { c with dt := ⟨c.dt.written_at + d, c.dt.inner⟩, st := ⟨c.st.written_at + d, c.st.inner⟩ }

/-- A step in which the clock shows `d` more. -/
def laterEnv (d : Nat) (e : Env) : Env := ⟨e.rand, e.readAt + d, e.iterAt + d, e.foldAt + d⟩

end Verif.Spec.Chip8
