import Verif.Model.GenericMap
import Verif.Spec.Numeral

/-!
# Requests on devices of any address and value type
-/

namespace Verif.Spec.Generic

open Verif Verif.Generic

/-- A request. -/
inductive Request (O V : Type)
  | read (a : O)
  | write (a : O) (v : V)

/-- The answer to a request. -/
inductive Answer (V : Type)
  | read (v : V)
  | write (r : Except String V)

variable {O V D : Type}

/-- The address of a request. -/
def Request.addr : Request O V → O
  | .read a => a
  | .write a _ => a

/-- One request to a device: its answer and the device afterwards. -/
def ask [Device O V D] (b : Build) (d : D) : Request O V → Res (Answer V × D)
  | .read a => do
    let v ← Device.read b d a
    .ok (.read v, d)
  | .write a v => do
    let (r, d') ← Device.write b d a v
    .ok (.write r, d')

/-- Requests one after the other. -/
def askAll [Device O V D] (b : Build) : D → List (Request O V) → Res (List (Answer V) × D)
  | d, [] => .ok ([], d)
  | d, q :: qs => do
    let (r, d₁) ← ask b d q
    let (rs, d') ← askAll b d₁ qs
    .ok (r :: rs, d')

/-- The requests, with their answers, whose address satisfies `P`. -/
def only (P : O → Bool) (l : List (Request O V × Answer V)) : List (Request O V × Answer V) :=
  l.filter fun x => P x.1.addr

/-- The answer of a bus to a request that no device has the address of. -/
def nobody [Offset O] [Inhabited V] : Request O V → Answer V
  | .read _ => .read default
  | .write a _ => .write (.error s!"address space {Offset.debug a} unallocated")

/-- No address lies in the ranges of two devices. -/
def NoSharing [Offset O] (es : List (Range O × D)) : Prop :=
  es.Pairwise fun e f => ∀ a, ¬ (e.1.contains a = true ∧ f.1.contains a = true)

/-- Two lists of the same length, related element by element. -/
def Each {α β : Type} (R : α → β → Prop) : List α → List β → Prop
  | [], [] => True
  | x :: xs, y :: ys => R x y ∧ Each R xs ys
  | _, _ => False

/-- Device `d`, given the requests of `l` in order, gives the answers of `l` and becomes `d'`. -/
def Answers [Device O V D] (b : Build) (d : D) (l : List (Request O V × Answer V)) (d' : D) : Prop :=
  askAll b d (l.map Prod.fst) = .ok (l.map Prod.snd, d')

/-- The value last written to an address that is `a` modulo `c`. -/
def lastAt {T : Type} (c a : Nat) (h : List (Nat × T)) : Option T :=
  (h.reverse.find? fun w => decide (w.1 % c = a % c)).map Prod.snd

/-- What a bus of ring buffers, given by their ranges and capacities, answers to a request after the
writes `h`. -/
def ringAnswer {T : Type} [Inhabited T] (rs : List (Range Nat × Nat)) (h : List (Nat × T))
    (q : Request Nat T) : Answer T :=
  match rs.find? fun e => e.1.start ≤ q.addr ∧ q.addr ≤ e.1.stop with
  | none => nobody q
  | some e =>
    match q with
    | .read a => .read ((lastAt e.2 a (h.filter fun w => e.1.start ≤ w.1 ∧ w.1 ≤ e.1.stop)).getD default)
    | .write _ v => .write (.ok v)

/-- The answers to requests one after the other. -/
def ringAnswers {T : Type} [Inhabited T] (rs : List (Range Nat × Nat)) :
    List (Nat × T) → List (Request Nat T) → List (Answer T)
  | _, [] => []
  | h, q :: qs =>
    ringAnswer rs h q :: ringAnswers rs (match q with | .read _ => h | .write a v => h ++ [(a, v)]) qs

/-- The pieces of a text between the occurrences of a character. -/
def pieces (c : Char) : List Char → List (List Char)
  | [] => [[]]
  | x :: xs =>
    if x = c then [] :: pieces c xs
    else match pieces c xs with
      | p :: ps => (x :: p) :: ps
      | [] => [[x]]

/-- The two numbers of a range, `first..=last`. -/
def readRange (s : List Char) : Option (Nat × Nat) :=
  match pieces '.' s with
  | [x, [], '=' :: y] =>
    match numeral 10 x, numeral 10 y with
    | some n, some k => some (n, k)
    | _, _ => none
  | _ => none

/-- Every element read, or nothing. -/
def readEach {α β : Type} (f : α → Option β) : List α → Option (List β)
  | [] => some []
  | x :: xs =>
    match f x, readEach f xs with
    | some y, some ys => some (y :: ys)
    | _, _ => none

/-- The ranges in a text like `AddressMap [16..=31, 64..=127]`. -/
def readListing (s : List Char) : Option (List (Nat × Nat)) :=
  let start := "AddressMap [".toList
  if s.take start.length = start ∧ s.getLast? = some ']' then
    let body := (s.drop start.length).dropLast
    if body = [] then some []
    else readEach readRange ((pieces ',' body).map fun p => if p.head? = some ' ' then p.tail else p)
  else none

end Verif.Spec.Generic
