import Verif.Proofs.LiveSplit
import Verif.Props.Live

/-!
# Property C136: input shared between the clones of a bus
-/

namespace Verif.Props

open Verif Verif.Mos Verif.Spec.Mos Verif.Spec.Live Verif.Live Verif.Live.Bus

variable {b : Build}

/-- What one expects of devices behind `Rc<RefCell<..>>` (among others of memory of the machine's own):
after a run they are as the completed instructions have left them. So there is a number of cycles `k`, at
most those of the run, after which everything goes on as it does after the run. -/
def C136_statement : Prop :=
  ∀ (b : Build) (W D : Type) [Device W D], Steady b W D →
    ∀ (cpu c' : Mos6502 Copy) (d : D) (w : W) (s' : Site W D) (m : Nat), cpu.address_map = .own →
    exec b (Mos.Live.run b cpu m) (atStart d w) = (.ok (.ready c'), s') →
    ∃ k ≤ m, ∀ n, exec b (Mos.Live.run b cpu (k + n)) (atStart d w) =
      exec b (Mos.Live.run b c' n) (atStart s'.own s'.world)

section
variable {W D : Type} [Device W D]

theorem run_exec {cpu : Mos6502 Copy} (n : Nat) (s : Site W D) :
    exec b (Mos.Live.run b cpu n) s =
      ((exec b (Mos.Live.runLoop b n { cpu with address_map := .iterator } [] cpu) s).1.map .ready,
        (exec b (Mos.Live.runLoop b n { cpu with address_map := .iterator } [] cpu) s).2) := by
  unfold Mos.Live.run
  rw [exec_bind]
  rcases exec b (Mos.Live.runLoop b n { cpu with address_map := .iterator } [] cpu) s with ⟨e | c, s'⟩ <;> rfl

/-- What holds for all such devices. A run of `m` cycles consists of `k` cycles of complete instructions and,
if the cycles do not end with them, the calls of one more instruction, of which nothing but what it did to the
devices remains. Runs that end with an instruction can be joined: a run of `k` cycles and then one of `n` are
a run of `k + n`, in result, panics, and all that happens to the devices. -/
theorem C136_mos_partial (hD : Steady b W D) {cpu c' : Mos6502 Copy} {d : D} {w : W} {s' : Site W D} {m : Nat}
    (hc : cpu.address_map = .own)
    (h : exec b (Mos.Live.run b cpu m) (atStart d w) = (.ok (.ready c'), s')) :
    ∃ k d₁ w₁, k ≤ m ∧ exec b (Mos.Live.run b cpu k) (atStart d w) = (.ok (.ready c'), atStart d₁ w₁) ∧
      (∀ n, exec b (Mos.Live.run b cpu (k + n)) (atStart d w) =
        exec b (Mos.Live.run b c' n) (atStart d₁ w₁)) ∧
      ((k = m ∧ s' = atStart d₁ w₁) ∨ (k < m ∧ ∃ ops it,
        exec b (Mos.Live.next b { c' with address_map := .iterator }) (atStart d₁ w₁) = (.ok (ops, it), s') ∧
        m < k + ops.cycles)) := by
  have hcpu : cpu = withRegs (regs cpu) .own := by rw [← hc]; rfl
  have hit : ({ cpu with address_map := .iterator } : Mos6502 Copy) = withRegs (regs cpu) .iterator := rfl
  rw [run_exec, hit] at h
  obtain ⟨z, h1, h2⟩ := mapped h
  cases h2
  rw [hcpu] at h1
  obtain ⟨e, k, d₁, w₁, hk, hn, hend⟩ := split_runLoop hD m (regs cpu) d w c' s' h1
  have hn' : ∀ n, exec b (Mos.Live.run b cpu (k + n)) (atStart d w) =
      exec b (Mos.Live.run b c' n) (atStart d₁ w₁) := by
    intro n
    have hit' : ({ c' with address_map := .iterator } : Mos6502 Copy) = withRegs (regs c') .iterator := rfl
    have := hn n
    rw [← e] at this
    rw [run_exec, run_exec, hit, hit']
    rw [← hcpu] at this
    rw [this]
  refine ⟨k, d₁, w₁, hk, ?_, hn', hend⟩
  have := hn' 0
  rw [Nat.add_zero] at this
  rw [this]
  rfl

/-- In particular a run that ends with an instruction can be continued by another run. -/
theorem C136_joined_partial (hD : Steady b W D) {cpu c' : Mos6502 Copy} {d : D} {w : W} {s' : Site W D}
    {m n : Nat} (hc : cpu.address_map = .own)
    (h : exec b (Mos.Live.run b cpu m) (atStart d w) = (.ok (.ready c'), s'))
    (hw : ∀ k < m, (exec b (Mos.Live.run b cpu k) (atStart d w)).1 ≠ .ok (.ready c')) :
    s' = atStart s'.own s'.world ∧
    exec b (Mos.Live.run b cpu (m + n)) (atStart d w) = exec b (Mos.Live.run b c' n) (atStart s'.own s'.world) := by
  obtain ⟨k, d₁, w₁, hk, h1, h2, ⟨rfl, rfl⟩ | ⟨h3, -⟩⟩ := C136_mos_partial hD hc h
  · exact ⟨rfl, h2 n⟩
  · exact absurd (by rw [h1]) (hw k h3)

/-- On the CHIP-8, where every cycle is an instruction, any two runs can be joined (if the clock does not move
within a step). -/
theorem C136_chip8 {R : Type} (hD : Steady b W D) {env : Nat → Chip8.Env}
    (hclock : ∀ k, (env k).iterAt = (env k).foldAt) {c c' : Chip8.Chip8 Copy R} {d : D} {w : W} {s' : Site W D}
    {m : Nat} (hc : c.address_space = .own)
    (h : exec b (Chip8.Live.run b env c m) (atStart d w) = (.ok (.ready c'), s')) (n : Nat) :
    s' = atStart s'.own s'.world ∧
    exec b (Chip8.Live.run b env c (m + n)) (atStart d w) =
      exec b (Chip8.Live.run b (fun k => env (m + k)) c' n) (atStart s'.own s'.world) := by
  have run_eq : ∀ (env : Nat → Chip8.Env) (c : Chip8.Chip8 Copy R) (n : Nat) (s : Site W D),
      exec b (Chip8.Live.run b env c n) s =
      ((exec b (Chip8.Live.runLoop b env n 0 { c with address_space := .iterator } c) s).1.map .ready,
        (exec b (Chip8.Live.runLoop b env n 0 { c with address_space := .iterator } c) s).2) := by
    intro env c n s
    unfold Chip8.Live.run
    rw [exec_bind]
    rcases exec b (Chip8.Live.runLoop b env n 0 { c with address_space := .iterator } c) s with
      ⟨e | c, s'⟩ <;> rfl
  have shift : ∀ (n j : Nat) (it c : Chip8.Chip8 Copy R),
      Chip8.Live.runLoop b env n (m + j) it c = Chip8.Live.runLoop b (fun k => env (m + k)) n j it c := by
    intro n
    induction n with
    | zero => intro j it c; rfl
    | succ n ih =>
      intro j it c
      simp only [Chip8.Live.runLoop]
      have := fun it c => ih (j + 1) it c
      simp only [← Nat.add_assoc] at this
      simp only [this]
  have hcpu : c = onBus (Spec.Chip8.rest c) .own := by rw [← hc]; rfl
  have hit : ({ c with address_space := .iterator } : Chip8.Chip8 Copy R) =
    onBus (Spec.Chip8.rest c) .iterator := rfl
  rw [run_eq, hit] at h
  obtain ⟨z, h1, h2⟩ := mapped h
  cases h2
  rw [hcpu] at h1
  obtain ⟨d', h2, h3, h4⟩ := chip8_runLoop hD hclock m 0 (Spec.Chip8.rest c) d w _ _ h1
  refine ⟨h3, ?_⟩
  subst h2
  have := h4 n
  rw [← hcpu, ← hit, Nat.zero_add] at this
  rw [run_eq, this, run_eq, ← h3]
  have hs := shift n 0 (onBus d' .iterator) (onBus d' .own)
  rw [Nat.add_zero] at hs
  rw [hs]
  rfl

end

/-- The devices this is about: memory and every other device that is a value; devices all of whose state is
shared; both together in one map, and maps of maps. -/
theorem C136_devices_partial {W D E : Type} [Device W D] [Device W E] :
    (∀ (B : Type) [Addressable B], Steady b W (Value B)) ∧
    (Steady b W D → Steady b W E → Steady b W (D ⊕ E)) ∧
    (Steady b W D → Steady b W (AddressMap D)) ∧
    ((∀ (d d' : D) (a : Word) (v : Byte) (w w' : W), Device.read b d a w = (.ok (v, d'), w') → d' = d) →
      (∀ (d d' : D) (a : Word) (x v : Byte) (w w' : W),
        Device.write b d a x w = (.ok (.ok v, d'), w') → d' = d) → Steady b W D) :=
  ⟨fun _ _ => steady_value, steady_sum, steady_map, steady_shared⟩

/-! ## A shared input -/

/-- A port that all clones of the bus share: reading `0x300` takes the next byte of the input (0 when there is
no more), elsewhere is the program `reader`. -/
structure Port where

instance : Device (List Byte) Port where
  read _ d a w := if a = 0x300 then (.ok (w.headD 0, d), w.tail) else (.ok (reader a, d), w)
  write _ d _ _ w := (.ok (.error "input only", d), w)

theorem port_steady (b : Build) : Steady b (List Byte) Port := by
  refine steady_shared ?_ ?_
  · rintro ⟨⟩ ⟨⟩ a v w w' -; rfl
  · rintro ⟨⟩ ⟨⟩ a x v w w' -; rfl

/-- `LDA 0x300` takes four cycles. A run of one, two or three cycles takes a byte of the input, and the program
does not get it. -/
theorem C136_lost (b : Build) (v : Byte) (q : List Byte) {n : Nat} (h0 : 0 < n) (h4 : n < 4) :
    exec b (Mos.Live.run b (withRegs sampleRegs .own) n) (atStart (⟨⟩ : Port) (v :: q)) =
      (.ok (.ready (withRegs sampleRegs .own)), atStart ⟨⟩ q) := by
  obtain rfl | rfl | rfl : n = 1 ∨ n = 2 ∨ n = 3 := by omega
  all_goals rcases b with ⟨_ | _⟩ <;> rfl

/-- Driven so, the program loses all of the input and never gets on. -/
theorem C136_all_lost (b : Build) (q : List Byte) {n : Nat} (h0 : 0 < n) (h4 : n < 4) :
    drive b n q.length (withRegs sampleRegs .own) (atStart (⟨⟩ : Port) q) =
      (.ok (withRegs sampleRegs .own), atStart ⟨⟩ []) := by
  induction q with
  | nil => rfl
  | cons v q ih =>
    simp only [List.length_cons, drive, C136_lost b v q h0 h4]
    exact ih

/-- In a run of at least four cycles the accumulator gets it. -/
theorem port_taken (b : Build) (v : Byte) (q : List Byte) :
    ∃ c, exec b (Mos.Live.run b (withRegs sampleRegs .own) 4) (atStart (⟨⟩ : Port) (v :: q)) =
      (.ok (.ready c), atStart ⟨⟩ q) ∧ c.acc = v ∧ c.pc = 0x8100 ∧ c.address_map = .own := by
  rcases b with ⟨_ | _⟩ <;> exact ⟨_, rfl, rfl, rfl, rfl⟩

/-- What is in the accumulator, if the 6502 has run. -/
def accumulator (p : Res (StepState (Mos6502 Copy)) × Site (List Byte) Port) : Option Byte :=
  match p with
  | (.ok (.ready c), _) => some c.acc
  | _ => none

/-- C136 fails: after a run of one cycle the first byte is gone, and 7 is what a run of four then gets; no run
without a break does so. -/
theorem C136_false : ¬ C136_statement := by
  intro h
  obtain ⟨k, hk, hn⟩ := h .debug (List Byte) Port (port_steady _) _ _ ⟨⟩ [5, 7] _ 1 rfl
    (C136_lost .debug 5 [7] (by decide) (by decide))
  have h4 := congrArg accumulator (hn 4)
  have h7 : accumulator (exec .debug (Mos.Live.run .debug (withRegs sampleRegs .own) 4)
    (atStart (atStart (⟨⟩ : Port) [(7 : Byte)]).own (atStart (⟨⟩ : Port) [(7 : Byte)]).world)) = some 7 := by
    decide +kernel
  rw [h7] at h4
  obtain rfl | rfl : k = 0 ∨ k = 1 := by omega
  · exact absurd h4 (by decide +kernel)
  · exact absurd h4 (by decide +kernel)

/-- After a run of four cycles the accumulator has the first byte, whatever it is, and any longer run is that
one and another one: the hypotheses of the theorems above are met by the port. -/
example (b : Build) (v : Byte) (q : List Byte) : ∃ c, c.acc = v ∧ ∀ n,
    exec b (Mos.Live.run b (withRegs sampleRegs .own) (4 + n)) (atStart (⟨⟩ : Port) (v :: q)) =
      exec b (Mos.Live.run b c n) (atStart ⟨⟩ q) := by
  obtain ⟨c, h1, h2, h3, -⟩ := port_taken b v q
  refine ⟨c, h2, fun n => ?_⟩
  refine (C136_joined_partial (port_steady b) rfl h1 (n := n) fun k hk => ?_).2
  have hpc : (withRegs sampleRegs Copy.own).pc ≠ c.pc := by rw [h3]; decide
  intro he
  apply hpc
  by_cases h0 : k = 0
  · subst h0
    have he' : (Except.ok (.ready (withRegs sampleRegs .own)) : Res (StepState (Mos6502 Copy))) =
      .ok (.ready c) := he
    cases he'
    rfl
  · rw [C136_lost b v _ (by omega) hk] at he
    cases he
    rfl

/-- One run of eight cycles gets two bytes, as two of four do. -/
example : (exec .debug (Mos.Live.run .debug (withRegs sampleRegs .own) 8) (atStart (⟨⟩ : Port) [(5 : Byte), 7])).2.world = [] ∧
    accumulator (exec .debug (Mos.Live.run .debug (withRegs sampleRegs .own) 8) (atStart (⟨⟩ : Port) [5, 7])) =
      some 5 := by decide +kernel

/-- The CHIP-8 gets the second byte in the second run. -/
example : ∃ c s c',
    exec .debug (Chip8.Live.run .debug Chip8.still (onBus Chip8.sample .own) 1)
      (atStart (⟨⟩ : Port) [(1 : Byte), 2]) = (.ok (.ready c), s) ∧ Spec.Chip8.V c .V0 = 1 ∧
    exec .debug (Chip8.Live.run .debug (fun k => Chip8.still (1 + k)) c 1) (atStart s.own s.world) =
      (.ok (.ready c'), atStart ⟨⟩ []) ∧ Spec.Chip8.V c' .V0 = 2 := by
  have h1 : ∃ c s, exec .debug (Chip8.Live.run .debug Chip8.still (onBus Chip8.sample .own) 1)
      (atStart (⟨⟩ : Port) [(1 : Byte), 2]) = (.ok (.ready c), s) ∧ Spec.Chip8.V c .V0 = 1 := ⟨_, _, rfl, rfl⟩
  have h2 : ∃ c' s', exec .debug (Chip8.Live.run .debug Chip8.still (onBus Chip8.sample .own) 2)
      (atStart (⟨⟩ : Port) [(1 : Byte), 2]) = (.ok (.ready c'), s') ∧ s'.world = [] ∧
        Spec.Chip8.V c' .V0 = 2 := ⟨_, _, rfl, rfl, rfl⟩
  obtain ⟨c, s, h1, h1'⟩ := h1
  obtain ⟨c', ⟨⟨⟩, ⟨⟩, w⟩, h2, hw, h2'⟩ := h2
  cases hw
  refine ⟨c, s, c', h1, h1', ?_, h2'⟩
  rw [← (C136_chip8 (port_steady .debug) (fun _ => rfl) rfl h1 1).2]
  exact h2

/-- A map with memory of the machine's own and the port is such a device. -/
example (b : Build) : Steady b (List Byte) (AddressMap (Value Memory ⊕ Port)) :=
  steady_map (steady_sum steady_value (port_steady b))

/-- The input of `C108`, of which every clone has its own, is not. -/
example (b : Build) : ¬ Steady b Unit Input := by
  intro h
  have := h.read (d := ⟨[1]⟩) (d' := ⟨[]⟩) (a := 0x300) (v := 1) (w := ()) (w' := ()) rfl
  exact absurd (congrArg (fun d : Input => d.queue.length) this) (by decide)

end Verif.Props
