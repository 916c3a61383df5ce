import Verif.Proofs.LiveChip8
import Verif.Proofs.Chip8Sample
import Verif.Props.Mos.Live

/-!
# Properties C104 and C105: the CHIP-8 on devices with a life of their own
-/

namespace Verif.Props.Chip8

open Verif Verif.Chip8 Verif.Spec.Chip8 Verif.Spec.Live Verif.Live Verif.Live.Bus
open Verif.Mos (FlatRam)
open Verif.Spec.Mos (writeAll)

variable {R : Type} {b : Build} {e : Env}

/-! ## C104 What the CHIP-8 asks its bus -/

/-- For all devices and answers: an instruction that returns reads its two bytes, then the bytes at I it
needs, in order and once each, then stores its bytes at I in order, all on one bus. -/
theorem C104_instruction {c : Chip8 Copy R} {q : Chip8 Copy R} {l : List Call} {mcs : List Microcode}
    (h : Asked (Chip8.Live.next b e c) l (.ok (mcs, q))) :
    q.address_space = c.address_space ∧
    ∃ reads vs, OneOpcode b e (rest c) reads mcs (rest q) ∧ vs.length = (byteStores mcs).length ∧
      l = readCalls c.address_space reads ++ putCalls c.address_space (byteStores mcs) vs := by
  obtain ⟨c', reads, vs, rfl, h1, h2, h3⟩ := asked_next (c := rest c) (who := c.address_space) h
  exact ⟨rfl, reads, vs, h1, h2, h3⟩

/-- An instruction that panics has made no other calls: it read one byte, or two that are no
instruction, or two that are one, then the first of the bytes at I it needs, and it has stored only
after it has read them all. -/
theorem C104_panics {c : Chip8 Copy R} {l : List Call} {p : Panic}
    (h : Asked (Chip8.Live.next b e c) l (.error p)) :
    (∃ b0, l = [.read c.address_space c.pc b0]) ∨
    ∃ b0 b1, (l = [.read c.address_space c.pc b0,
          .read c.address_space (BitVec.ofNat 16 (c.pc.toNat + 1)) b1] ∧
        ¬ ∃ op, Valid op ∧ encode op = b0.toNat * 256 + b1.toNat) ∨
      ∃ op rs ws, Valid op ∧ encode op = b0.toNat * 256 + b1.toNat ∧
        l = readCalls c.address_space ((c.pc, b0) :: (BitVec.ofNat 16 (c.pc.toNat + 1), b1) :: rs) ++
          anyPuts c.address_space ws ∧
        rs.map Prod.fst <+: cellsFrom c.i (readCount op) ∧
        ws.map Prod.fst <+: cellsFrom c.i (storeCount op) ∧
        (ws ≠ [] → rs.map Prod.fst = cellsFrom c.i (readCount op)) :=
  asked_next_error (c := rest c) (who := c.address_space) h

/-- On a bus that holds the bytes that were read, the next instruction is this one, with the same
microcode and the same machine afterwards. -/
theorem C104_memory {B : Type} [Addressable B] {c q : Chip8 Copy R} {l : List Call} {mcs : List Microcode}
    {bus bus' : B} (h : Asked (Chip8.Live.next b e c) l (.ok (mcs, q)))
    (hr : ∀ who a v, Call.read who a v ∈ l → Addressable.read b bus a = .ok v)
    (hw : writeAll b bus (byteStores mcs) = .ok bus') :
    next b e (onBus c bus) = .ok (mcs, onBus q bus') := by
  have hpc : addU16 b c.pc 1 = .ok (BitVec.ofNat 16 (c.pc.toNat + 1)) := by
    unfold Chip8.Live.next at h
    obtain ⟨_, _, op, rfl, h0, -⟩ := Mos.asked_bind_ok.1 h
    rcases asked_fetch (c := rest c) (who := c.address_space) h0 with ⟨_, _, -, hf⟩ | ⟨_, _, -, hp, -⟩
    · cases hf
    · exact hp
  obtain ⟨-, reads, vs, ⟨op, b0, b1, rs, hv, henc, -, rfl, -, hx⟩, -, rfl⟩ := C104_instruction h
  have hmem : ∀ p ∈ (((rest c).pc, b0) :: (BitVec.ofNat 16 ((rest c).pc.toNat + 1), b1) :: rs),
      Addressable.read b bus p.1 = .ok p.2 := by
    intro p hp
    refine hr c.address_space p.1 p.2 ?_
    simp only [List.mem_append]
    exact .inl (List.mem_map.2 ⟨p, hp, rfl⟩)
  have h0 : Addressable.read b bus c.pc = .ok b0 := hmem (c.pc, b0) (by simp [rest])
  have h1 : Addressable.read b bus (BitVec.ofNat 16 (c.pc.toNat + 1)) = .ok b1 :=
    hmem (BitVec.ofNat 16 (c.pc.toNat + 1), b1) (by simp [rest])
  obtain ⟨hg, he⟩ := hx B bus bus' (fun p hp => hmem p (by simp [hp])) hw
  have hf : fetch b (onBus c bus) = .ok op := by
    show (Addressable.read b bus c.pc >>= fun b0 => addU16 b c.pc 1 >>= fun pc1 =>
      Addressable.read b bus pc1 >>= fun b1 => decodeBytesToOpcode b0 b1 >>= fun r => unwrapResult r) = _
    rw [h0, Res.ok_bind, hpc, Res.ok_bind, h1, Res.ok_bind, C40_decode_encode op hv b0 b1 henc.symm]
    rfl
  unfold next
  rw [hf, Res.ok_bind]
  have hg' : (generate b e (onBus c bus) op).map (· ++ [.Inc16bitRegister .ProgramCounter 2]) = .ok mcs := hg
  cases hgen : generate b e (onBus c bus) op with
  | error p => rw [hgen] at hg'; cases hg'
  | ok m =>
    rw [hgen] at hg'
    cases hg'
    have he' : executeAll b e.iterAt (onBus c bus) (m ++ [.Inc16bitRegister .ProgramCounter 2]) =
      .ok (onBus (rest q) bus') := he
    simp only [Res.ok_bind]
    rw [he']
    rfl

/-- The calls of `run`, for all devices and answers. -/
theorem C104_run {env : Nat → Env} {c : Chip8 Copy R} {n : Nat} {l : List Call} {s : StepState (Chip8 Copy R)}
    (hc : c.address_space = .own) (h : Asked (Chip8.Live.run b env c n) l (.ok s)) :
    ∃ c', s = .ready c' ∧ c'.address_space = .own ∧ RanOpcodes b env n 0 (rest c) (rest c) l (rest c') := by
  unfold Chip8.Live.run at h
  obtain ⟨l₁, l₂, c', rfl, h1, h2⟩ := Mos.asked_bind_ok.1 h
  rw [pure_eq, asked_done] at h2
  obtain ⟨rfl, h2⟩ := h2
  simp only [Except.ok.injEq] at h2
  have ho : c = onBus (rest c) .own := by rw [← hc]; rfl
  obtain ⟨d, rfl, hr⟩ := asked_runLoop env n 0 (rest c) (rest c) l₁ c' (by rw [← ho]; exact h1)
  exact ⟨_, h2, rfl, by rw [List.append_nil]; exact hr⟩

/-- The same on actual devices, whatever they do. -/
theorem C104_devices {W D : Type} [Device W D] {env : Nat → Env} {c : Chip8 Copy R} {n : Nat} {s s' : Site W D}
    {st : StepState (Chip8 Copy R)} (hc : c.address_space = .own)
    (h : exec b (Chip8.Live.run b env c n) s = (.ok st, s')) :
    ∃ c' l, st = .ready c' ∧ RanOpcodes b env n 0 (rest c) (rest c) l (rest c') ∧ Answers b s l s' := by
  obtain ⟨l, h1, h2⟩ := exec_ok_iff.1 h
  obtain ⟨c', h3, -, h4⟩ := C104_run hc h1
  exact ⟨c', l, h3, h4, h2⟩

/-- The bus of the machine itself is never read by `run`; it only receives the stores of the clone, each
at once after the instruction that made it. -/
theorem C104_own_never_read {env : Nat → Env} {n k : Nat} {it c c' : Chip8 Unit R} {l : List Call}
    (h : RanOpcodes b env n k it c l c') : ∀ who a v, Call.read who a v ∈ l → who = .iterator := by
  have puts : ∀ who a v (c : Copy) (ws : List (Word × Byte)) (vs : List Byte),
      Call.read who a v ∉ putCalls c ws vs := by
    intro who a v c ws
    induction ws with
    | nil => intro vs h; simp [putCalls] at h
    | cons w ws ih =>
      intro vs h
      cases vs with
      | nil => simp [putCalls] at h
      | cons x vs =>
        simp only [putCalls, List.zipWith_cons_cons, List.mem_cons] at h
        rcases h with h | h
        · cases h
        · exact ih vs h
  induction h with
  | stop => intro who a v h; simp at h
  | step _ _ _ _ _ ih =>
    intro who a v h
    simp only [List.mem_append] at h
    rcases h with h | h | h | h
    · obtain ⟨p, -, h⟩ := List.mem_map.1 h
      cases h
      rfl
    · exact absurd h (puts _ _ _ _ _ _)
    · exact absurd h (puts _ _ _ _ _ _)
    · exact ih _ _ _ h

/-- On devices that are values the calls give what `run` gives, panics included. -/
theorem C104_values {W B : Type} [Addressable B] (env : Nat → Env) (c : Chip8 B R) (n : Nat) (w : W) :
    (∀ c', run b env c n = .ok (.ready c') → ∃ s',
      exec b (Chip8.Live.run b env (onBus c .own) n)
          (⟨⟨c.address_space⟩, ⟨c.address_space⟩, w⟩ : Site W (Value B)) =
        (.ok (.ready (onBus c' .own)), s') ∧ s'.own = ⟨c'.address_space⟩ ∧ s'.world = w) ∧
    (∀ p, run b env c n = .error p →
      (exec b (Chip8.Live.run b env (onBus c .own) n)
        (⟨⟨c.address_space⟩, ⟨c.address_space⟩, w⟩ : Site W (Value B))).1 = .error p) := by
  obtain ⟨h1, h2⟩ := Verif.Chip8.exec_runLoop (b := b) env n 0 c c
    (⟨⟨c.address_space⟩, ⟨c.address_space⟩, w⟩ : Site W (Value B)) rfl rfl
  unfold run Chip8.Live.run
  have hn : ({ onBus c Copy.own with address_space := .iterator } : Chip8 Copy R) = onBus c .iterator := rfl
  rw [exec_bind, hn]
  cases hr : runLoop b env n 0 c c with
  | error p =>
    refine ⟨fun _ h => (by cases h), fun p' h => ?_⟩
    cases h
    have := h2 p hr
    rcases hx : exec b (Chip8.Live.runLoop b env n 0 (onBus c .iterator) (onBus c .own))
      (⟨⟨c.address_space⟩, ⟨c.address_space⟩, w⟩ : Site W (Value B)) with ⟨r, s'⟩
    rw [hx] at this
    simp only at this
    subst this
    rfl
  | ok d =>
    refine ⟨fun c' h => ?_, fun p h => (by cases h)⟩
    cases h
    obtain ⟨s', h3, h4, h5⟩ := h1 d hr
    rw [h3]
    exact ⟨s', rfl, h4, h5⟩

/-- The hypotheses of the theorems above are met: `F265` in front of any devices, with the answers they
give, and three instructions of a run, `F155`, `F165` and `6A07`. -/
example (b : Build) (e : Env) (x y z : Byte) :
    ∃ mcs q, Asked (Chip8.Live.next b e (onBus sample .own))
      [.read .own 0x200 0xf2, .read .own 0x201 0x65, .read .own 0x300 x, .read .own 0x301 y,
        .read .own 0x302 z] (.ok (mcs, q)) ∧ (V q .V0, V q .V1, V q .V2) = (x, y, z) := by
  rcases b with ⟨_ | _⟩ <;>
    exact ⟨_, _, .read (.read (.read (.read (.read (.done _))))), rfl⟩

example (b : Build) (env : Nat → Env) (x y : Byte) :
    ∃ c', Asked (Chip8.Live.run b env (onBus sample .own) 3)
      [.read .iterator 0x200 0xf1, .read .iterator 0x201 0x55,
        .write .iterator 0x300 0x11 (.ok 0), .write .iterator 0x301 0xfe (.ok 0),
        .write .own 0x300 0x11 (.ok 0), .write .own 0x301 0xfe (.ok 0),
        .read .iterator 0x202 0xf1, .read .iterator 0x203 0x65,
        .read .iterator 0x300 x, .read .iterator 0x301 y,
        .read .iterator 0x204 0x6a, .read .iterator 0x205 0x07] (.ok (.ready c')) ∧
      (V c' .V0, V c' .V1, V c' .Va) = (x, y, 7) := by
  rcases b with ⟨_ | _⟩ <;>
    exact ⟨_, .read (.read (.write (.write (.write (.write (.read (.read (.read (.read (.read (.read
      (.done _)))))))))))), rfl⟩

/-- Panics: a byte pair that is no instruction, and a store that the second device refuses. -/
example (b : Build) (e : Env) : ∃ p, Asked (Chip8.Live.next b e (onBus sample .own))
    [.read .own 0x200 0xff, .read .own 0x201 0xff] (.error p) := by
  rcases b with ⟨_ | _⟩ <;> exact ⟨_, .read (.read (.done _))⟩

example (b : Build) (e : Env) : ∃ p, Asked (Chip8.Live.next b e (onBus sample .own))
    [.read .own 0x200 0xf1, .read .own 0x201 0x55, .write .own 0x300 0x11 (.ok 0),
      .write .own 0x301 0xfe (.error "read only")] (.error p) := by
  rcases b with ⟨_ | _⟩ <;> exact ⟨_, .read (.read (.write (.write (.done _))))⟩

/-! ## C105 Memory that the clones share -/

section
variable {B : Type} [Addressable B]

/-- On memory that is shared between the clones of the bus, `run` does what it does on memory of its
own, for every number of instructions and every clock. -/
theorem C105_shared (hB : Cells b B) {env : Nat → Env} {c c' : Chip8 B R} {n : Nat}
    (h : run b env c n = .ok (.ready c')) :
    exec b (Chip8.Live.run b env (onBus c .own) n) (together c.address_space) =
      (.ok (.ready (onBus c' .own)), together c'.address_space) := by
  unfold run at h
  obtain ⟨d, hd, h⟩ := bind_inv h
  cases h
  unfold Chip8.Live.run
  have hn : ({ onBus c Copy.own with address_space := .iterator } : Chip8 Copy R) = onBus c .iterator := rfl
  rw [exec_bind, hn, (shared_runLoop hB env n 0 c c rfl).1 _ hd]
  rfl

/-- And it panics where it panics on memory of its own. -/
theorem C105_panics (hB : Cells b B) {env : Nat → Env} {c : Chip8 B R} {n : Nat} {p : Panic}
    (h : run b env c n = .error p) :
    (exec b (Chip8.Live.run b env (onBus c .own) n) (together c.address_space)).1 = .error p := by
  unfold run at h
  have hd : runLoop b env n 0 c c = .error p := by
    cases hr : runLoop b env n 0 c c with
    | error p' => rw [hr] at h; cases h; rfl
    | ok d => rw [hr] at h; cases h
  have h2 := (shared_runLoop hB env n 0 c c rfl).2 p hd
  unfold Chip8.Live.run
  have hn : ({ onBus c Copy.own with address_space := .iterator } : Chip8 Copy R) = onBus c .iterator := rfl
  rw [exec_bind, hn]
  rcases hx : exec b (Chip8.Live.runLoop b env n 0 (onBus c .iterator) (onBus c .own))
    (together c.address_space) with ⟨r, s'⟩
  rw [hx] at h2
  simp only at h2
  subst h2
  rfl

end

/-- The memories this holds for. -/
theorem C105_memory (b : Build) :
    Cells b Memory ∧ Cells b (AddressMap Memory) ∧ Cells b (AddressMap (AddressMap Memory)) :=
  ⟨cells_memory b, cells_map (cells_memory b), cells_map (cells_map (cells_memory b))⟩

/-- RAM that adds what is stored to what it holds: a device that is not made of cells. -/
structure Adder where
  mem : Word → Byte

instance : Addressable Adder where
  read _ d a := .ok (d.mem a)
  write _ d a v := .ok (.ok v, ⟨fun x => if x = a then d.mem x + v else d.mem x⟩)

/-- `F055` in such RAM. -/
def adding : Adder := ⟨fun a => if a = 0x200 then 0xf0 else if a = 0x201 then 0x55 else 0⟩

/-- The condition cannot be left out: shared between the clones, such a device gets the byte twice. -/
theorem C105_cells_needed (b : Build) (env : Nat → Env) :
    (∃ c', run b env (onBus sample adding) 1 = .ok (.ready c') ∧ c'.address_space.mem 0x300 = 0x11) ∧
    (exec b (Chip8.Live.run b env (onBus sample .own) 1) (together adding)).2.world.mem 0x300 =
      0x22 := by
  refine ⟨by rcases b with ⟨_ | _⟩ <;> exact ⟨_, rfl, rfl⟩, ?_⟩
  rcases b with ⟨_ | _⟩
  · rfl
  · rfl

/-- A run that meets the hypotheses, on shared RAM: three digits are stored and two of them read
back. -/
example (b : Build) (env : Nat → Env) : Cells b FlatRam ∧
    ∃ c' : Chip8 FlatRam Unit, run b env
      (onBus sample (⟨fun a => if a = 0x200 then 0xf3 else if a = 0x201 then 0x33 else
        if a = 0x202 then 0xf1 else if a = 0x203 then 0x65 else 0⟩ : FlatRam)) 2 = .ok (.ready c') ∧
      (V c' .V0, V c' .V1, c'.address_space.mem 0x302) = (0, 5, 1) := by
  refine ⟨cells_flat b, ?_⟩
  rcases b with ⟨_ | _⟩ <;> exact ⟨_, rfl, rfl⟩

/-- And one that panics. -/
example (b : Build) (env : Nat → Env) : ∃ p, run b env
    (onBus sample (⟨fun _ => 0xff⟩ : FlatRam)) 1 = .error p := by
  rcases b with ⟨_ | _⟩ <;> exact ⟨_, rfl⟩

end Verif.Props.Chip8
