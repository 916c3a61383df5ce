import Verif.Model.Rust

/-!
# `src/address_map/page.rs`
-/

namespace Verif

/-- `Page<u16>`, `src/address_map/page.rs:3-8`: an inclusive range. -/
structure Page where
  /-- lower bound -/
  lower : Word
  /-- upper bound (inclusive) -/
  upper : Word
  deriving DecidableEq, Repr

namespace Page

/-- `Page::new`, `src/address_map/page.rs:16-18`. -/
def new (start stop : Word) : Page := ⟨start, stop⟩

/-- `Page::contains`, `src/address_map/page.rs:21-23`. -/
def contains (p : Page) (addr : Word) : Bool :=
  decide (p.lower.toNat ≤ addr.toNat) && decide (addr.toNat ≤ p.upper.toNat)

/-- `impl From<u8> for Page<u16>`, `src/address_map/page.rs:26-31`. -/
def ofU8 (_ : Byte) : Page := ⟨0x00, 0xff⟩

/-- `impl From<u16> for Page<u16>`, `src/address_map/page.rs:33-43`, with its checked operators. -/
def ofU16 (b : Build) (addr : Word) : Res Page := do
  let page_size : Word := 0xff
  let modulus ← addU16 b page_size 1
  let gap ← subU16 b page_size (addr % modulus)
  let upper ← addU16 b addr gap
  let lower ← subU16 b upper page_size
  .ok ⟨lower, upper⟩

end Page

end Verif
