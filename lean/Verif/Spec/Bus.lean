import Verif.Model.Memory

/-!
# Specification of the bus

A small abstract bus: who owns an address and which byte it holds, updated by the history of
registrations and writes. It knows nothing about hash maps, segments or offsets.
-/

namespace Verif.Spec

open Verif

/-- The address lies in the inclusive range. -/
def InRange (r : AddrRange) (a : Word) : Prop := r.start.toNat ≤ a.toNat ∧ a.toNat ≤ r.stop.toNat

instance (r : AddrRange) (a : Word) : Decidable (InRange r a) := by
  unfold InRange; infer_instance

/-- Two ranges share an address. -/
def Overlap (r s : AddrRange) : Prop := ∃ a, InRange r a ∧ InRange s a

/-- The device list claims every address at most once. -/
def DisjointEntries {D : Type} (es : List (AddrRange × D)) : Prop :=
  es.Pairwise (fun e f => ¬ Overlap e.1 f.1)

/-- Something that happens to a bus of memory segments. -/
inductive BusEvent where
  /-- a segment holding `data` (one byte per address of the range) is registered -/
  | register (kind : MemKind) (r : AddrRange) (data : List Byte)
  /-- the byte `v` is written to address `a` -/
  | write (a : Word) (v : Byte)

/-- The abstract bus. -/
structure Bus where
  /-- the kind of memory mapped at an address, if any -/
  owner : Word → Option MemKind
  /-- the byte an address reads as -/
  val : Word → Byte

/-- Nothing mapped, everything reads 0. -/
def Bus.empty : Bus := ⟨fun _ => none, fun _ => 0⟩

/-- The effect of one event. -/
def Bus.step (s : Bus) : BusEvent → Bus
  | .register kind r data =>
    { owner := fun a => if InRange r a then some kind else s.owner a
      val := fun a => if InRange r a then data.getD (a.toNat - r.start.toNat) 0 else s.val a }
  | .write a v =>
    if s.owner a = some .readWrite then
      { s with val := fun x => if x = a then v else s.val x }
    else s

/-- The bus after a history (oldest event first). -/
def Bus.after (h : List BusEvent) : Bus := h.foldl Bus.step Bus.empty

/-- The byte last written to `a` in a list of writes (oldest first). -/
def lastWrite (a : Word) : List (Word × Byte) → Option Byte
  | [] => none
  | (x, v) :: rest =>
    match lastWrite a rest with
    | some w => some w
    | none => if x = a then some v else none

/-- A request on the bus. -/
inductive BusOp where
  | read (a : Word)
  | write (a : Word) (v : Byte)

/-- The answer to a request. -/
inductive BusAnswer where
  | read (v : Byte)
  | write (r : Except String Byte)

/-- The address of a request. -/
def BusOp.addr : BusOp → Word
  | .read a => a
  | .write a _ => a

/-- The answers to those requests whose address satisfies `P`. -/
def answersTo (P : Word → Prop) [DecidablePred P] : List BusOp → List BusAnswer → List BusAnswer
  | o :: ops, r :: rs => if P o.addr then r :: answersTo P ops rs else answersTo P ops rs
  | _, _ => []

/-- Executing a list of requests on any device. -/
def runOps {D : Type} [Addressable D] (b : Build) : D → List BusOp → Res (List BusAnswer × D)
  | d, [] => .ok ([], d)
  | d, .read a :: ops => do
    let v ← Addressable.read b d a
    let (rs, d') ← runOps b d ops
    .ok (.read v :: rs, d')
  | d, .write a v :: ops => do
    let (r, d₁) ← Addressable.write b d a v
    let (rs, d') ← runOps b d₁ ops
    .ok (.write r :: rs, d')

/-- Histories of a bus of memory segments: each registration is of a segment made by
`Memory::new` over the registered range and loaded with an image of the same size, over a range
that overlaps no registered one; the hash map may change its iteration order at any time. -/
inductive MemTrace (b : Build) : List BusEvent → AddressMap Memory → Prop
  | new : MemTrace b [] AddressMap.new
  | register {h : List BusEvent} {m m' : AddressMap Memory} {kind : MemKind} {r : AddrRange}
      {fresh : Memory} {data : List Byte} :
      MemTrace b h m →
      Memory.new b kind r.start r.stop = .ok fresh →
      data.length = fresh.dump.length →
      (∀ e ∈ m.inner, ¬ Overlap r e.1) →
      AddressMap.Registers m r (fresh.load data) m' →
      MemTrace b (h ++ [.register kind r data]) m'
  | rehash {h : List BusEvent} {m m' : AddressMap Memory} :
      MemTrace b h m → m.inner.Perm m'.inner → MemTrace b h m'
  | write {h : List BusEvent} {m m' : AddressMap Memory} {a : Word} {v : Byte}
      {res : Except String Byte} :
      MemTrace b h m → m.write b a v = .ok (res, m') → MemTrace b (h ++ [.write a v]) m'

end Verif.Spec
