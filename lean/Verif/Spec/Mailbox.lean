import Verif.Spec.MosProgram

/-!
# A front end for the 6502 that works frame by frame
-/

namespace Verif.Spec.Mos

open Verif Verif.Mos

/-- Each frame: put a byte into the mailbox at `a` (`Mos6502::with_address_map_mut`,
`src/cpu/mos6502/mod.rs:159-164`), then run a number of cycles (`Mos6502::run`, lines 218-227). -/
def mailFrames {B : Type} [Addressable B] (b : Build) (a : Nat) :
    Mos6502 B → List (Byte × Nat) → Res (Mos6502 B)
  | c, [] => .ok c
  | c, (v, n) :: fs =>
    withAddressMapMut c (fun m => Addressable.write b m (word a) v) >>= fun q =>
      run b q.2 n >>= fun s => mailFrames b a s.unwrap fs

/-- `p: LDA a; BEQ p`: wait until the byte in the mailbox is not zero. The displacement is -3, not -5: see C26. -/
def pollLoop (a : Nat) : List Byte := op16 0xad a ++ [0xf0, 0xfd]

/-- The registers after loading `v`, at the address `q`. -/
def fetched (r : Regs) (v : Byte) (q : Nat) : Regs := { r with a := v, p := setNZ r.p v, pc := word q }

/-- Waiting: the mailbox has not been read yet, or the last byte read was zero. -/
def Waiting (p : Nat) (r t : Regs) : Prop := t = r ∨ t = fetched r 0 (p + 3) ∨ t = fetched r 0 p

end Verif.Spec.Mos
