/-!
# The fragment of Rust used by the model

Machine integers, panics and the two overflow regimes. These definitions are of the language and its
standard library, not of the crate; each names a place where the crate uses what is defined.
-/

namespace Verif

/-- Rust `u8`, the values on the bus (`src/address_map/memory.rs:76`). -/
abbrev Byte := BitVec 8

/-- Rust `u16`, the addresses on the bus (`src/address_map/memory.rs:76`). -/
abbrev Word := BitVec 16

/-- The ways the modelled code can panic: for instance `src/address_map/memory.rs:80` (overflow) and `:81`
(bounds), `src/cpu/mos6502/mod.rs:329` (`Err`), `src/cpu/chip8/mod.rs:188` (`None`),
`src/cpu/chip8/u12.rs:29` (explicit), `src/address_map/memory.rs:47-50` (capacity) and
`src/cpu/chip8/memory.rs:24` (remainder by zero). -/
inductive Panic where
  /-- integer overflow detected by a build with overflow checks -/
  | overflow
  /-- slice / array / `Vec` index out of bounds -/
  | bounds
  /-- `Result::unwrap` on an `Err` -/
  | unwrapErr (msg : String)
  /-- `Option::unwrap` on `None` -/
  | unwrapNone
  /-- an explicit `panic!` -/
  | explicit (msg : String)
  /-- a `Vec` larger than the address space -/
  | capacity
  /-- remainder by zero -/
  | divByZero
  deriving DecidableEq, Repr

/-- A Rust computation that either returns normally or panics, as `src/address_map/memory.rs:79-82`. -/
abbrev Res (α : Type) := Except Panic α

deriving instance DecidableEq for Except

@[simp] theorem Res.ok_bind {α β : Type} (a : α) (f : α → Res β) :
    ((Except.ok a : Res α) >>= f) = f a := rfl

@[simp] theorem Res.error_bind {α β : Type} (e : Panic) (f : α → Res β) :
    ((Except.error e : Res α) >>= f) = Except.error e := rfl

@[simp] theorem Res.pure_eq {α : Type} (a : α) : (pure a : Res α) = Except.ok a := rfl

/-- The build profile. `/repo/Cargo.toml` lines 1-11 override no profile, so a `dev` or `test`
build has overflow checks and a `release` build has none; both are in use. -/
structure Build where
  /-- arithmetic overflow panics (true) or wraps (false) -/
  overflowChecks : Bool
  deriving DecidableEq, Repr

/-- The `dev`/`test` profile, `/repo/Cargo.toml` lines 1-11. -/
def Build.debug : Build := ⟨true⟩

/-- The `release` profile, `/repo/Cargo.toml` lines 1-11. -/
def Build.release : Build := ⟨false⟩

/-- Rust `x + y` on `u16`, as in `src/cpu/mos6502/mod.rs:262`. -/
def addU16 (b : Build) (x y : Word) : Res Word :=
  if b.overflowChecks ∧ 65536 ≤ x.toNat + y.toNat then .error .overflow else .ok (x + y)

/-- Rust `x - y` on `u16`, as in `src/address_map/memory.rs:80`. -/
def subU16 (b : Build) (x y : Word) : Res Word :=
  if b.overflowChecks ∧ x.toNat < y.toNat then .error .overflow else .ok (x - y)

/-- Rust `x + y` on `u8`, as in `src/cpu/mos6502/operations/mod.rs:261`. -/
def addU8 (b : Build) (x y : Byte) : Res Byte :=
  if b.overflowChecks ∧ 256 ≤ x.toNat + y.toNat then .error .overflow else .ok (x + y)

/-- Rust `x - y` on `u8`, as in `src/cpu/chip8/register.rs:114`. -/
def subU8 (b : Build) (x y : Byte) : Res Byte :=
  if b.overflowChecks ∧ x.toNat < y.toNat then .error .overflow else .ok (x - y)

/-- Rust `x * y` on `u8`, as in `src/cpu/chip8/operations/mod.rs:517`. -/
def mulU8 (b : Build) (x y : Byte) : Res Byte :=
  if b.overflowChecks ∧ 256 ≤ x.toNat * y.toNat then .error .overflow else .ok (x * y)

/-- The number of values of `usize` on a 64-bit target, the coordinates of `src/cpu/chip8/microcode.rs:194`. -/
def usizeCount : Nat := 2 ^ 64

/-- A `usize` result that may be out of range, as in `src/cpu/chip8/mod.rs:554-556` (`n` is the exact result plus a multiple of
`usizeCount`, `fits` whether the exact result is in range): a panic or the wrapped value. -/
def usizeResult (b : Build) (fits : Bool) (n : Nat) : Res Nat :=
  if b.overflowChecks ∧ fits = false then .error .overflow else .ok (n % usizeCount)

/-- Rust `x + y` on `usize`, as in `src/cpu/chip8/mod.rs:554-556`. -/
def addUsize (b : Build) (x y : Nat) : Res Nat := usizeResult b (decide (x + y < usizeCount)) (x + y)

/-- Rust `x * y` on `usize`, as in `src/cpu/chip8/mod.rs:554-556`. -/
def mulUsize (b : Build) (x y : Nat) : Res Nat := usizeResult b (decide (x * y < usizeCount)) (x * y)

/-- Rust `x - y` on `usize`, as in `src/cpu/chip8/mod.rs:554-556`. -/
def subUsize (b : Build) (x y : Nat) : Res Nat :=
  usizeResult b (decide (y ≤ x)) (x + (usizeCount - y))

/-- Rust `x as u16` for `x : u8`, as in `src/cpu/mos6502/operations/mod.rs:243`. -/
def u16OfU8 (x : Byte) : Word := x.setWidth 16

/-- Rust `u16::from_le_bytes([lo, hi])`, as in `src/cpu/mos6502/mod.rs:110`. -/
def u16FromLeBytes (lo hi : Byte) : Word := hi ++ lo

/-- Rust `w.to_le_bytes()`, as in `src/cpu/mos6502/operations/mod.rs:3165`. -/
def u16ToLeBytes (w : Word) : Byte × Byte := (w.setWidth 8, (w >>> 8).setWidth 8)

/-- Rust `u16::from_be_bytes([hi, lo])`, as in `src/cpu/chip8/u12.rs:182`. -/
def u16FromBeBytes (hi lo : Byte) : Word := hi ++ lo

/-- Rust `v[i]` on a slice, as in `src/address_map/memory.rs:81`. -/
def index {α : Type} (v : List α) (i : Nat) : Res α :=
  match v[i]? with
  | some a => .ok a
  | none => .error .bounds

/-- Rust `v[i] = a` on a slice, as in `src/address_map/memory.rs:88`. -/
def indexSet {α : Type} (v : List α) (i : Nat) (a : α) : Res (List α) :=
  if i < v.length then .ok (v.set i a) else .error .bounds

/-- Rust `r.unwrap()` for `r : Result<T, String>`, as in `src/cpu/mos6502/mod.rs:329`. -/
def unwrapResult {α : Type} (r : Except String α) : Res α :=
  match r with
  | .ok a => .ok a
  | .error e => .error (.unwrapErr e)

end Verif
