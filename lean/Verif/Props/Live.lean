import Verif.Spec.LivePrivate
import Verif.Props.Chip8.Live
import Verif.Props.Chip8.Random

/-!
# Properties C107 and C108: maps of live devices, and reads that have an effect
-/

namespace Verif.Props

open Verif Verif.Mos Verif.Spec.Mos Verif.Spec.Live Verif.Live Verif.Live.Bus

variable {b : Build}

/-! ## C107 A map passes every call to one device -/

section
variable {W D : Type} [Device W D]

/-- A read of an address in one device's range only is a read of that device, at the same address: its
answer, its change, its effect on the world; all other devices are left alone. -/
theorem C107_read {r : AddrRange} {d : D} {pre post : List (AddrRange × D)} {a : Word} {w : W}
    (hr : r.contains a = true) (ho : ∀ e ∈ pre, e.1.contains a = false) :
    Device.read b (⟨pre ++ (r, d) :: post⟩ : AddressMap D) a w =
      ((Device.read b d a w).1.map (fun p => (p.1, (⟨pre ++ (r, p.2) :: post⟩ : AddressMap D))),
        (Device.read b d a w).2) := by
  have key : ∀ pre : List (AddrRange × D), (∀ e ∈ pre, e.1.contains a = false) →
      mapReadEntries b a w (pre ++ (r, d) :: post) =
        ((Device.read b d a w).1.map (fun p => (p.1, pre ++ (r, p.2) :: post)), (Device.read b d a w).2) := by
    intro pre ho
    induction pre with
    | nil =>
      simp only [List.nil_append, mapReadEntries, hr, if_true]
      rcases Device.read b d a w with ⟨e | ⟨v, d'⟩, w'⟩ <;> rfl
    | cons e pre ih =>
      obtain ⟨q, x⟩ := e
      have h1 : q.contains a = false := ho _ (List.mem_cons_self ..)
      simp only [List.cons_append, mapReadEntries, h1, Bool.false_eq_true, if_false,
        ih (fun e he => ho e (List.mem_cons_of_mem _ he))]
      rcases Device.read b d a w with ⟨e | ⟨v, d'⟩, w'⟩ <;> rfl
  show mapRead b _ a w = _
  unfold mapRead
  rw [key pre ho]
  rcases Device.read b d a w with ⟨e | ⟨v, d'⟩, w'⟩ <;> rfl

/-- So is a write. -/
theorem C107_write {r : AddrRange} {d : D} {pre post : List (AddrRange × D)} {a : Word} {x : Byte} {w : W}
    (hr : r.contains a = true) (ho : ∀ e ∈ pre, e.1.contains a = false) :
    Device.write b (⟨pre ++ (r, d) :: post⟩ : AddressMap D) a x w =
      ((Device.write b d a x w).1.map (fun p => (p.1, (⟨pre ++ (r, p.2) :: post⟩ : AddressMap D))),
        (Device.write b d a x w).2) := by
  have key : ∀ pre : List (AddrRange × D), (∀ e ∈ pre, e.1.contains a = false) →
      mapWriteEntries b a x w (pre ++ (r, d) :: post) =
        ((Device.write b d a x w).1.map (fun p => (p.1, pre ++ (r, p.2) :: post)),
          (Device.write b d a x w).2) := by
    intro pre ho
    induction pre with
    | nil =>
      simp only [List.nil_append, mapWriteEntries, hr, if_true]
      rcases Device.write b d a x w with ⟨e | ⟨v, d'⟩, w'⟩ <;> rfl
    | cons e pre ih =>
      obtain ⟨q, y⟩ := e
      have h1 : q.contains a = false := ho _ (List.mem_cons_self ..)
      simp only [List.cons_append, mapWriteEntries, h1, Bool.false_eq_true, if_false,
        ih (fun e he => ho e (List.mem_cons_of_mem _ he))]
      rcases Device.write b d a x w with ⟨e | ⟨v, d'⟩, w'⟩ <;> rfl
  show mapWrite b _ a x w = _
  unfold mapWrite
  rw [key pre ho]
  rcases Device.write b d a x w with ⟨e | ⟨v, d'⟩, w'⟩ <;> rfl

/-- An address in no range: a read gives 0, a write is refused, and no device notices. -/
theorem C107_unmapped {m : AddressMap D} {a : Word} {x : Byte} {w : W}
    (ho : ∀ e ∈ m.inner, e.1.contains a = false) :
    Device.read b m a w = (.ok (0, m), w) ∧ ∃ msg, Device.write b m a x w = (.ok (.error msg, m), w) := by
  have hread : ∀ es : List (AddrRange × D), (∀ e ∈ es, e.1.contains a = false) →
      mapReadEntries b a w es = (.ok (0, es), w) := by
    intro es ho
    induction es with
    | nil => rfl
    | cons e es ih =>
      obtain ⟨q, y⟩ := e
      have h1 : q.contains a = false := ho _ (List.mem_cons_self ..)
      simp only [mapReadEntries, h1, Bool.false_eq_true, if_false,
        ih (fun e he => ho e (List.mem_cons_of_mem _ he))]
  have hwrite : ∀ es : List (AddrRange × D), (∀ e ∈ es, e.1.contains a = false) →
      mapWriteEntries b a x w es = (.ok (.error s!"address space {a.toNat} unallocated", es), w) := by
    intro es ho
    induction es with
    | nil => rfl
    | cons e es ih =>
      obtain ⟨q, y⟩ := e
      have h1 : q.contains a = false := ho _ (List.mem_cons_self ..)
      simp only [mapWriteEntries, h1, Bool.false_eq_true, if_false,
        ih (fun e he => ho e (List.mem_cons_of_mem _ he))]
  constructor
  · show mapRead b m a w = _
    unfold mapRead
    rw [hread _ ho]
  · refine ⟨s!"address space {a.toNat} unallocated", ?_⟩
    show mapWrite b m a x w = _
    unfold mapWrite
    rw [hwrite _ ho]

end

/-- The map with every device as a value. -/
def asValues {D : Type} (m : AddressMap D) : AddressMap (Value D) := ⟨m.inner.map fun e => (e.1, ⟨e.2⟩)⟩

/-- On devices that are values a map does what the map of the value model does, for all maps, overlapping
ones included. -/
theorem C107_values {W D : Type} [Addressable D] (m : AddressMap D) (a : Word) (x : Byte) (w : W) :
    Device.read b (asValues m) a w = ((Addressable.read b m a).map (fun v => (v, asValues m)), w) ∧
    Device.write b (asValues m) a x w =
      ((Addressable.write b m a x).map (fun p => (p.1, asValues p.2)), w) := by
  have hread : ∀ es : List (AddrRange × D), mapReadEntries b a w (es.map fun e => (e.1, (⟨e.2⟩ : Value D))) =
      ((AddressMap.read b ⟨es⟩ a).map (fun v => (v, es.map fun e => (e.1, (⟨e.2⟩ : Value D)))), w) := by
    intro es
    induction es with
    | nil => rfl
    | cons e es ih =>
      obtain ⟨q, d⟩ := e
      simp only [List.map_cons, mapReadEntries, AddressMap.read, List.find?_cons]
      by_cases hq : q.contains a = true
      · simp only [hq, if_true]
        rw [show Device.read b (⟨d⟩ : Value D) a w =
          ((Addressable.read b d a).map fun v => (v, (⟨d⟩ : Value D)), w) from rfl]
        cases Addressable.read b d a <;> rfl
      · have hq' : q.contains a = false := by simpa using hq
        simp only [hq', Bool.false_eq_true, if_false]
        rw [ih]
        simp only [AddressMap.read]
        cases List.find? (fun e => e.1.contains a) es with
        | none => rfl
        | some y =>
          obtain ⟨q', d'⟩ := y
          simp only
          cases Addressable.read b d' a <;> rfl
  have hwrite : ∀ es : List (AddrRange × D), mapWriteEntries b a x w (es.map fun e => (e.1, (⟨e.2⟩ : Value D))) =
      ((AddressMap.writeEntries b a x es).map
        (fun p => (p.1, p.2.map fun e => (e.1, (⟨e.2⟩ : Value D)))), w) := by
    intro es
    induction es with
    | nil => rfl
    | cons e es ih =>
      obtain ⟨q, d⟩ := e
      simp only [List.map_cons, mapWriteEntries, AddressMap.writeEntries]
      by_cases hq : q.contains a = true
      · simp only [hq, if_true]
        rw [show Device.write b (⟨d⟩ : Value D) a x w =
          ((Addressable.write b d a x).map fun p => (p.1, (⟨p.2⟩ : Value D)), w) from rfl]
        cases Addressable.write b d a x <;> rfl
      · have hq' : q.contains a = false := by simpa using hq
        simp only [hq', Bool.false_eq_true, if_false]
        rw [ih]
        cases AddressMap.writeEntries b a x es <;> rfl
  constructor
  · show mapRead b (asValues m) a w = _
    unfold mapRead asValues
    rw [hread]
    show _ = ((AddressMap.read b m a).map _, w)
    cases AddressMap.read b m a <;> rfl
  · show mapWrite b (asValues m) a x w = _
    unfold mapWrite asValues
    rw [hwrite]
    show _ = ((AddressMap.write b m a x).map _, w)
    unfold AddressMap.write
    cases AddressMap.writeEntries b a x m.inner <;> rfl

section
variable {W D E α : Type} [Device W D] [Device W E]

/-- Devices of different kinds in one map (`Box<dyn Addressable>`): any computation on devices of the
first kind is what it is on the devices themselves. -/
theorem C107_first_kind (t : Bus α) (s : Site W D) :
    exec b t (⟨.inl s.iterator, .inl s.own, s.world⟩ : Site W (D ⊕ E)) =
      ((exec b t s).1, ⟨.inl (exec b t s).2.iterator, .inl (exec b t s).2.own, (exec b t s).2.world⟩) := by
  induction t generalizing s with
  | done r => rfl
  | read who a k ih =>
    obtain ⟨it, own, w⟩ := s
    cases who <;> simp only [exec, Site.on]
    · rw [show Device.read b (.inl it : D ⊕ E) a w = (match Device.read b it a w with
          | (.ok (v, d'), w') => (.ok (v, .inl d'), w')
          | (.error e, w') => (.error e, w')) from rfl]
      rcases Device.read b it a w with ⟨e | ⟨v, d'⟩, w'⟩
      · rfl
      · exact ih v ⟨d', own, w'⟩
    · rw [show Device.read b (.inl own : D ⊕ E) a w = (match Device.read b own a w with
          | (.ok (v, d'), w') => (.ok (v, .inl d'), w')
          | (.error e, w') => (.error e, w')) from rfl]
      rcases Device.read b own a w with ⟨e | ⟨v, d'⟩, w'⟩
      · rfl
      · exact ih v ⟨it, d', w'⟩
  | write who a x k ih =>
    obtain ⟨it, own, w⟩ := s
    cases who <;> simp only [exec, Site.on]
    · rw [show Device.write b (.inl it : D ⊕ E) a x w = (match Device.write b it a x w with
          | (.ok (v, d'), w') => (.ok (v, .inl d'), w')
          | (.error e, w') => (.error e, w')) from rfl]
      rcases Device.write b it a x w with ⟨e | ⟨v, d'⟩, w'⟩
      · rfl
      · exact ih v ⟨d', own, w'⟩
    · rw [show Device.write b (.inl own : D ⊕ E) a x w = (match Device.write b own a x w with
          | (.ok (v, d'), w') => (.ok (v, .inl d'), w')
          | (.error e, w') => (.error e, w')) from rfl]
      rcases Device.write b own a x w with ⟨e | ⟨v, d'⟩, w'⟩
      · rfl
      · exact ih v ⟨it, d', w'⟩

/-- Likewise of the second kind. -/
theorem C107_second_kind (t : Bus α) (s : Site W E) :
    exec b t (⟨.inr s.iterator, .inr s.own, s.world⟩ : Site W (D ⊕ E)) =
      ((exec b t s).1, ⟨.inr (exec b t s).2.iterator, .inr (exec b t s).2.own, (exec b t s).2.world⟩) := by
  induction t generalizing s with
  | done r => rfl
  | read who a k ih =>
    obtain ⟨it, own, w⟩ := s
    cases who <;> simp only [exec, Site.on]
    · rw [show Device.read b (.inr it : D ⊕ E) a w = (match Device.read b it a w with
          | (.ok (v, d'), w') => (.ok (v, .inr d'), w')
          | (.error e, w') => (.error e, w')) from rfl]
      rcases Device.read b it a w with ⟨e | ⟨v, d'⟩, w'⟩
      · rfl
      · exact ih v ⟨d', own, w'⟩
    · rw [show Device.read b (.inr own : D ⊕ E) a w = (match Device.read b own a w with
          | (.ok (v, d'), w') => (.ok (v, .inr d'), w')
          | (.error e, w') => (.error e, w')) from rfl]
      rcases Device.read b own a w with ⟨e | ⟨v, d'⟩, w'⟩
      · rfl
      · exact ih v ⟨it, d', w'⟩
  | write who a x k ih =>
    obtain ⟨it, own, w⟩ := s
    cases who <;> simp only [exec, Site.on]
    · rw [show Device.write b (.inr it : D ⊕ E) a x w = (match Device.write b it a x w with
          | (.ok (v, d'), w') => (.ok (v, .inr d'), w')
          | (.error e, w') => (.error e, w')) from rfl]
      rcases Device.write b it a x w with ⟨e | ⟨v, d'⟩, w'⟩
      · rfl
      · exact ih v ⟨d', own, w'⟩
    · rw [show Device.write b (.inr own : D ⊕ E) a x w = (match Device.write b own a x w with
          | (.ok (v, d'), w') => (.ok (v, .inr d'), w')
          | (.error e, w') => (.error e, w')) from rfl]
      rcases Device.write b own a x w with ⟨e | ⟨v, d'⟩, w'⟩
      · rfl
      · exact ih v ⟨it, d', w'⟩

end

/-! ## C108 Reads that have an effect -/

/-- An input: a read of `0x300` takes the next byte, and after the last one gives 0. Elsewhere is a
program. What is left of the input is in a `Cell`. -/
structure Input where
  /-- the bytes to come -/
  queue : List Byte

/-- Programs that read `0x300` twice: at `0x200` the CHIP-8's `F065` twice, at `0x80fd` the 6502's
`LDA 0x300` and `LDX 0x300`. -/
def reader (a : Word) : Byte :=
  if a = 0x200 then 0xf0 else if a = 0x201 then 0x65 else if a = 0x202 then 0xf0 else if a = 0x203 then 0x65
  else if a = 0x80fd then 0xad else if a = 0x80ff then 0x03 else if a = 0x8100 then 0xae
  else if a = 0x8102 then 0x03 else 0

instance : Device Unit Input where
  read _ d a w := if a = 0x300 then (.ok (d.queue.headD 0, ⟨d.queue.tail⟩), w) else (.ok (reader a, d), w)
  write _ d _ _ w := (.ok (.error "input only", d), w)

/-- What one expects of devices in a CHIP-8 whose clock stands still during a step: a run of `m` and then
one of `n` instructions are a run of `m + n`, for the machine and for its devices. -/
def C108_statement : Prop :=
  ∀ (b : Build) (D : Type) [Device Unit D] (R : Type) (env : Nat → Chip8.Env) (c c' : Chip8.Chip8 Copy R)
    (d : D) (s' : Site Unit D) (m n : Nat),
    (∀ k, (env k).iterAt = (env k).foldAt) → c.address_space = .own →
    exec b (Chip8.Live.run b env c m) (cloned d) = (.ok (.ready c'), s') →
    exec b (Chip8.Live.run b env c (m + n)) (cloned d) =
      exec b (Chip8.Live.run b (fun k => env (m + k)) c' n) (cloned s'.own)

section
variable {D : Type} [Device Unit D]

theorem answers_own {s s' : Site Unit D} {l : List Call} (h : Answers b s l s')
    (hr : ∀ who a v, Call.read who a v ∈ l → who = .iterator) : Fed b s.own (writesOn .own l) s'.own := by
  induction h with
  | nil s => exact .nil _
  | @read s s' who a v d w l hd _ ih =>
    have : who = .iterator := hr who a v (List.mem_cons_self ..)
    subst this
    exact ih (fun who a v h => hr who a v (List.mem_cons_of_mem _ h))
  | @write s s' who a x v d w l hd _ ih =>
    have ih' := ih (fun who a v h => hr who a v (List.mem_cons_of_mem _ h))
    cases who with
    | iterator => exact ih'
    | own =>
      show Fed b s.own ((a, x, v) :: writesOn .own l) s'.own
      exact .cons hd ih'

/-- What holds, for all devices whose clones are independent: after a run of the 6502 the CPU's own
devices have seen the stores of the completed instructions and no read. -/
theorem C108_mos_partial {cpu : Mos6502 Copy} {n : Nat} {s s' : Site Unit D}
    {st : StepState (Mos6502 Copy)} (hc : cpu.address_map = .own)
    (h : exec b (Mos.Live.run b cpu n) s = (.ok st, s')) :
    ∃ c' l, st = .ready c' ∧ Ran b n (regs cpu) l (regs c') ∧ Fed b s.own (writesOn .own l) s'.own := by
  obtain ⟨c', l, h1, h2, h3⟩ := C102_devices hc h
  exact ⟨c', l, h1, h2, answers_own h3 (C102_own_never_read h2)⟩

/-- Likewise the CHIP-8. -/
theorem C108_chip8_partial {R : Type} {env : Nat → Chip8.Env} {c : Chip8.Chip8 Copy R} {n : Nat}
    {s s' : Site Unit D} {st : StepState (Chip8.Chip8 Copy R)} (hc : c.address_space = .own)
    (h : exec b (Chip8.Live.run b env c n) s = (.ok st, s')) :
    ∃ c' l, st = .ready c' ∧
      RanOpcodes b env n 0 (Spec.Chip8.rest c) (Spec.Chip8.rest c) l (Spec.Chip8.rest c') ∧
      Fed b s.own (writesOn .own l) s'.own := by
  obtain ⟨c', l, h1, h2, h3⟩ := Chip8.C104_devices hc h
  exact ⟨c', l, h1, h2, answers_own h3 (Chip8.C104_own_never_read h2)⟩

theorem fed_same (hD : ∀ (d d' : D) (a : Word) (x : Byte) (v : Except String Byte),
      Device.write b d a x () = (.ok (v, d'), ()) → d' = d)
    {d d' : D} {ws : List (Word × Byte × Except String Byte)} (h : Fed b d ws d') : d' = d := by
  induction h with
  | nil => rfl
  | cons hw _ ih => exact ih.trans (hD _ _ _ _ _ hw)

/-- Devices that only give input never advance: however often and however long either CPU is run, its
devices are those it had in the beginning, and the next run reads the same input again. -/
theorem C108_input_partial (hD : ∀ (d d' : D) (a : Word) (x : Byte) (v : Except String Byte),
      Device.write b d a x () = (.ok (v, d'), ()) → d' = d) :
    (∀ (cpu : Mos6502 Copy) (n : Nat) (s s' : Site Unit D) (st : StepState (Mos6502 Copy)),
      cpu.address_map = .own → exec b (Mos.Live.run b cpu n) s = (.ok st, s') → s'.own = s.own) ∧
    (∀ (R : Type) (env : Nat → Chip8.Env) (c : Chip8.Chip8 Copy R) (n : Nat) (s s' : Site Unit D)
      (st : StepState (Chip8.Chip8 Copy R)), c.address_space = .own →
      exec b (Chip8.Live.run b env c n) s = (.ok st, s') → s'.own = s.own) := by
  constructor
  · intro cpu n s s' st hc h
    obtain ⟨_, _, -, -, hf⟩ := C108_mos_partial hc h
    exact fed_same hD hf
  · intro R env c n s s' st hc h
    obtain ⟨_, _, -, -, hf⟩ := C108_chip8_partial hc h
    exact fed_same hD hf

end

/-- The input meets the hypothesis. -/
theorem input_only (b : Build) (d d' : Input) (a : Word) (x : Byte) (v : Except String Byte)
    (h : Device.write b d a x () = (.ok (v, d'), ())) : d' = d := by
  cases h
  rfl

/-- What the 6502 has read, if it has run. -/
def taken (p : Res (StepState (Mos6502 Copy)) × Site Unit Input) : Option (Byte × Byte × List Byte) :=
  match p with
  | (.ok (.ready c), s) => some (c.acc, c.x, s.own.queue)
  | _ => none

/-- A map with an input on `0x300` and a program on the rest: a read of `0x300` takes a byte of the
first and leaves the second alone. -/
example (b : Build) (k k' : Byte) (q : List Byte) :
    Device.read b (⟨[(⟨0, 0x2ff⟩, ⟨q⟩), (⟨0x300, 0x300⟩, ⟨[k, k']⟩)]⟩ : AddressMap Input) 0x300 () =
      (.ok (k, ⟨[(⟨0, 0x2ff⟩, ⟨q⟩), (⟨0x300, 0x300⟩, ⟨[k']⟩)]⟩), ()) :=
  C107_read (D := Input) (pre := [(⟨0, 0x2ff⟩, ⟨q⟩)]) (r := ⟨0x300, 0x300⟩) (d := ⟨[k, k']⟩) (post := [])
    (a := 0x300) (w := ()) rfl (by simp [AddrRange.contains])

/-- An address outside both. -/
example : ∀ e ∈ (⟨[(⟨0, 0x2ff⟩, ⟨[]⟩), (⟨0x300, 0x300⟩, ⟨[]⟩)]⟩ : AddressMap Input).inner,
    e.1.contains 0x301 = false := by
  simp [AddrRange.contains]

/-- The 6502 after a run, if it has run. -/
def after (p : Res (StepState (Mos6502 Copy)) × Site Unit Input) : Mos6502 Copy :=
  match p with
  | (.ok (.ready c), _) => c
  | _ => withRegs sampleRegs .own

/-- The 6502 reads two bytes of input in one run of eight cycles, which stay in its own device. -/
theorem input_once (b : Build) :
    taken (exec b (Mos.Live.run b (withRegs sampleRegs .own) 8) (cloned (⟨[1, 2]⟩ : Input))) =
      some (1, 2, [1, 2]) := by
  rcases b with ⟨_ | _⟩ <;> decide +kernel

/-- In two runs of four cycles it reads the first byte twice. -/
theorem input_twice (b : Build) :
    let p := exec b (Mos.Live.run b (withRegs sampleRegs .own) 4) (cloned (⟨[1, 2]⟩ : Input))
    taken p = some (1, sampleRegs.x, [1, 2]) ∧
    taken (exec b (Mos.Live.run b (after p) 4) (cloned p.2.own)) = some (1, 1, [1, 2]) := by
  rcases b with ⟨_ | _⟩ <;> decide +kernel

/-- The CHIP-8 with the two bytes 1 and 2, in one run and in two. -/
theorem input_chip8 : (∃ c s, exec .debug (Chip8.Live.run .debug Chip8.still (onBus Chip8.sample .own) 2)
      (cloned (⟨[1, 2]⟩ : Input)) = (.ok (.ready c), s) ∧ Spec.Chip8.V c .V0 = 2) ∧
    ∃ c s c' s', exec .debug (Chip8.Live.run .debug Chip8.still (onBus Chip8.sample .own) 1)
      (cloned (⟨[1, 2]⟩ : Input)) = (.ok (.ready c), s) ∧
      exec .debug (Chip8.Live.run .debug (fun k => Chip8.still (1 + k)) c 1) (cloned s.own) =
        (.ok (.ready c'), s') ∧ Spec.Chip8.V c' .V0 = 1 := by
  exact ⟨⟨_, _, rfl, rfl⟩, _, _, _, _, rfl, rfl, rfl⟩

/-- C108 fails. -/
theorem C108_false : ¬ C108_statement := by
  intro h
  obtain ⟨⟨c, s, h1, h2⟩, c₁, s₁, c₂, s₂, h3, h4, h5⟩ := input_chip8
  have := h .debug Input Unit Chip8.still (onBus Chip8.sample .own) c₁ ⟨[1, 2]⟩ s₁ 1 1 (fun _ => rfl) rfl h3
  rw [h4] at this
  rw [h1] at this
  cases this
  rw [h2] at h5
  exact absurd h5 (by decide)

end Verif.Props
