import Verif.Model.Chip8.State

/-!
# A CHIP-8 without its bus
-/

namespace Verif.Spec.Chip8

open Verif Verif.Chip8

/-- Everything of a CHIP-8 but the bus: stack, timers, registers, display, keyboard, generator. -/
def rest {B R : Type} (c : Chip8 B R) : Chip8 Unit R where
  stack := c.stack
  address_space := ()
  dt := c.dt
  st := c.st
  pc := c.pc
  sp := c.sp
  i := c.i
  gp_registers := c.gp_registers
  display := c.display
  interrupt := c.interrupt
  rng := c.rng

end Verif.Spec.Chip8
