import Verif.Props.Chip8.Frame
import Verif.Props.Chip8.Run
import Verif.Props.Mos.Demo

/-!
# CHIP-8: when the emulator panics (C62)
-/

namespace Verif.Props.Chip8

open Verif Verif.Chip8 Verif.Spec.Chip8
open Verif.Mos (FlatRam writeAll_coherent trace_coherent flatRam_coherent)
open Verif.Spec.Mos (Mem BusView writeAll Coherent upd RefusesWrite)

variable {B R : Type} [Addressable B] {b : Build} {e : Env} {env : Nat → Env} {cpu c : Chip8 B R}
  {mem : Mem} {op : Opcode}

/-- While `op` executes, after the writes `ws` to some of the addresses I..I+n, the bus refuses one
of these addresses. -/
def WriteRefused (b : Build) (cpu : Chip8 B R) (op : Opcode) : Prop :=
  ∃ n k ws bus, memSpan op = some n ∧ k ≤ n ∧ (∀ w ∈ ws, ∃ j, j ≤ n ∧ w.1 = iPlus cpu j) ∧
    writeAll b cpu.address_space ws = .ok bus ∧ RefusesWrite b bus (iPlus cpu k)

/-- A failing list of writes has a first failing one. -/
theorem writeAll_fails {bus : B} {ws : List (Word × Byte)} {p : Panic}
    (h : writeAll b bus ws = .error p) :
    ∃ ws₁ w ws₂ bus', ws = ws₁ ++ w :: ws₂ ∧ writeAll b bus ws₁ = .ok bus' ∧
      RefusesWrite b bus' w.1 := by
  induction ws generalizing bus with
  | nil => cases h
  | cons w ws ih =>
    obtain ⟨a, v⟩ := w
    by_cases hw : ∃ r bus', Addressable.write b bus a v = .ok (.ok r, bus')
    · obtain ⟨r, bus', hw⟩ := hw
      simp only [writeAll, hw] at h
      obtain ⟨ws₁, w, ws₂, bus₂, rfl, h2, h3⟩ := ih h
      exact ⟨(a, v) :: ws₁, w, ws₂, bus₂, rfl, by simp only [writeAll, hw]; exact h2, h3⟩
    · exact ⟨[], (a, v), ws, bus, rfl, rfl, v, hw⟩

/-- The fetch panics for two reasons only. -/
theorem fetch_fails (hv : BusView b cpu.address_space mem)
    (h1 : ¬ (b.overflowChecks = true ∧ cpu.pc = 0xffff))
    (h2 : ∃ op, Valid op ∧ wordAt mem cpu.pc = encode op) : ∃ op, At b cpu op := by
  obtain ⟨op, h2⟩ := h2
  refine ⟨op, (fetch_iff hv ?_ op).2 h2⟩
  cases hb : b.overflowChecks
  · exact .inl rfl
  · right
    have := cpu.pc.isLt
    apply Nat.lt_of_le_of_ne (by omega)
    intro h
    exact h1 ⟨hb, BitVec.eq_of_toNat_eq h⟩

/-- C62: the only reasons for one step to panic. The last four are those of an instruction: it uses
VF (or sets it), an address past 0xffff or a digit above 51 in Fx29 in a build with overflow checks,
or a write the bus refuses. -/
theorem C62_reasons (hv : BusView b cpu.address_space mem) (hw : WellFormed cpu)
    (h : StepPanics b e cpu) :
    (b.overflowChecks = true ∧ cpu.pc = 0xffff) ∨
    (¬∃ op, Valid op ∧ wordAt mem cpu.pc = encode op) ∨
    ∃ op, Valid op ∧ wordAt mem cpu.pc = encode op ∧
      (UsesVf cpu op ∨ (b.overflowChecks = true ∧ Overflows cpu op) ∨ WriteRefused b cpu op) := by
  by_cases h1 : b.overflowChecks = true ∧ cpu.pc = 0xffff
  · exact .inl h1
  by_cases h2 : ∃ op, Valid op ∧ wordAt mem cpu.pc = encode op
  · right; right
    obtain ⟨op, hat⟩ := fetch_fails hv h1 h2
    have hpc : b.overflowChecks = false ∨ cpu.pc.toNat < 65535 := by
      cases hb : b.overflowChecks
      · exact .inl rfl
      · right
        have := cpu.pc.isLt
        apply Nat.lt_of_le_of_ne (by omega)
        intro h
        exact h1 ⟨hb, BitVec.eq_of_toNat_eq h⟩
    obtain ⟨h3, h4⟩ := (fetch_iff hv hpc op).1 hat
    refine ⟨op, h3, h4, ?_⟩
    by_cases h5 : UsesVf cpu op
    · exact .inl h5
    by_cases h6 : b.overflowChecks = true ∧ Overflows cpu op
    · exact .inr (.inl h6)
    right; right
    have hs := step_ok (e := e) hat ⟨h5, h6⟩ (fun _ => hv) (fun _ => hw)
    obtain ⟨p, hp⟩ := h
    unfold StepWrites at hs
    rw [hp] at hs
    cases hwa : writeAll b cpu.address_space (writes cpu op) with
    | ok bus => rw [hwa] at hs; cases hs
    | error q =>
      obtain ⟨ws₁, w, ws₂, bus', h7, h8, h9⟩ := writeAll_fails hwa
      obtain ⟨n, k, h10, h11, h12⟩ := writes_span cpu op w (by rw [h7]; simp)
      refine ⟨n, k, ws₁, bus', h10, h11, ?_, h8, by rw [← h12]; exact h9⟩
      intro w' hw'
      obtain ⟨n', k', h13, h14, h15⟩ := writes_span cpu op w' (by rw [h7]; simp [hw'])
      rw [h10] at h13
      cases h13
      exact ⟨k', h14, h15⟩
  · exact .inr (.inl h2)

/-- Conversely, each reason that does not depend on the device makes the step panic. -/
theorem C62_panics (hv : BusView b cpu.address_space mem)
    (h : (b.overflowChecks = true ∧ cpu.pc = 0xffff) ∨
      (¬∃ op, Valid op ∧ wordAt mem cpu.pc = encode op) ∨
      ∃ op, Valid op ∧ wordAt mem cpu.pc = encode op ∧
        (UsesVf cpu op ∨ (b.overflowChecks = true ∧ Overflows cpu op))) :
    StepPanics b e cpu := by
  by_cases h1 : b.overflowChecks = true ∧ cpu.pc = 0xffff
  · have : fetch b cpu = .error .overflow := by
      unfold fetch
      simp only
      rw [hv cpu.pc, Res.ok_bind, addU16, if_pos (by rw [h1.1, h1.2]; decide)]
      rfl
    refine ⟨.overflow, ?_⟩
    rw [run_one]
    unfold next
    rw [this]
    rfl
  have hpc : b.overflowChecks = false ∨ cpu.pc.toNat < 65535 := by
    cases hb : b.overflowChecks
    · exact .inl rfl
    · right
      have := cpu.pc.isLt
      apply Nat.lt_of_le_of_ne (by omega)
      intro h
      exact h1 ⟨hb, BitVec.eq_of_toNat_eq h⟩
  rcases h with h | h | ⟨op, h2, h3, h4⟩
  · exact absurd h h1
  · cases hf : fetch b cpu with
    | ok op => exact absurd ⟨op, (fetch_iff hv hpc op).1 hf⟩ h
    | error p =>
      refine ⟨p, ?_⟩
      rw [run_one]
      unfold next
      rw [hf]
      rfl
  · refine step_panics ((fetch_iff hv hpc op).2 ⟨h2, h3⟩) hv fun hr => ?_
    rcases h4 with h4 | h4
    · exact hr.1 h4
    · exact hr.2 h4

/-- And so does a bus that refuses every byte at I, the first address Fx33 and Fx55 write, at the time. -/
theorem C62_panics_refused (hv : BusView b cpu.address_space mem) (hw : WellFormed cpu)
    (hat : At b cpu op) {n : Nat} (hop : memSpan op = some n)
    (h : ∀ v, ¬∃ r bus', Addressable.write b cpu.address_space cpu.i v = .ok (.ok r, bus')) :
    StepPanics b e cpu := by
  by_cases hr : Runs b cpu op
  · have hs := step_ok (e := e) hat hr (fun _ => hv) (fun _ => hw)
    have hfirst : ∃ v ws, writes cpu op = (cpu.i, v) :: ws := by
      cases op <;> simp only [memSpan, reduceCtorEq] at hop
      · exact ⟨_, _, rfl⟩
      · exact ⟨_, _, by
          rw [writes, List.range_succ_eq_map, List.map_cons,
            show cpu.i + BitVec.ofNat 16 0 = cpu.i by simp]⟩
    obtain ⟨v, ws, h1⟩ := hfirst
    unfold StepWrites at hs
    rw [h1] at hs
    cases hwa : writeAll b cpu.address_space ((cpu.i, v) :: ws) with
    | error p => rw [hwa] at hs; exact ⟨p, hs⟩
    | ok bus =>
      exfalso
      simp only [writeAll] at hwa
      split at hwa
      · cases hwa
      · cases hwa
      · rename_i r bus' h2
        exact h v ⟨r, bus', h2⟩
  · exact step_panics hat hv hr

/-- So does a bus that keeps refusing every byte at any one of the addresses I..I+n, whatever it takes
before. -/
theorem C62_panics_block {P : B → Prop} {n k : Nat} (hbus : P cpu.address_space)
    (hkeep : ∀ bus, P bus → ∀ w v r bus', Addressable.write b bus w v = .ok (.ok r, bus') → P bus')
    (href : ∀ bus, P bus → ∀ v, ¬∃ r bus', Addressable.write b bus (iPlus cpu k) v = .ok (.ok r, bus'))
    (hv : BusView b cpu.address_space mem) (hw : WellFormed cpu) (hat : At b cpu op)
    (hop : memSpan op = some n) (hk : k ≤ n) : StepPanics b e cpu := by
  have fails : ∀ (ws : List (Word × Byte)) (bus : B), P bus → iPlus cpu k ∈ ws.map Prod.fst →
      ∃ p, writeAll b bus ws = .error p := by
    intro ws
    induction ws with
    | nil => intro _ _ h; cases h
    | cons w ws ih =>
      intro bus hb hm
      obtain ⟨a, v⟩ := w
      simp only [writeAll]
      split
      · exact ⟨_, rfl⟩
      · exact ⟨_, rfl⟩
      · rename_i r bus' h2
        refine ih bus' (hkeep bus hb _ _ _ _ h2) ?_
        rcases List.mem_cons.1 hm with h | h
        · change iPlus cpu k = a at h
          subst h
          exact absurd ⟨r, bus', h2⟩ (href bus hb v)
        · exact h
  by_cases hr : Runs b cpu op
  · have hs := step_ok (e := e) hat hr (fun _ => hv) (fun _ => hw)
    have hmem : iPlus cpu k ∈ (writes cpu op).map Prod.fst := by
      cases op <;> simp only [memSpan, reduceCtorEq, Option.some.injEq] at hop
      · subst hop
        obtain rfl | rfl | rfl : k = 0 ∨ k = 1 ∨ k = 2 := by omega
        · simp [writes, iPlus]
        · simp [writes, iPlus, BitVec.ofNat_add]
        · simp [writes, iPlus, BitVec.ofNat_add]
      · subst hop
        simp only [writes, List.map_map, List.mem_map, List.mem_range]
        exact ⟨k, by omega, by simp [iPlus, BitVec.ofNat_add]⟩
    obtain ⟨p, hp⟩ := fails _ _ hbus hmem
    unfold StepWrites at hs
    rw [hp] at hs
    exact ⟨p, hs⟩
  · exact step_panics hat hv hr

/-! ### Absence of panics -/

/-- The bus accepts every byte at the addresses `W`. -/
def AcceptsAt (b : Build) (I : B → Mem → Prop) (W : Word → Prop) : Prop :=
  ∀ bus mem, I bus mem → ∀ a, W a → ∀ v, ∃ r bus', Addressable.write b bus a v = .ok (.ok r, bus')

/-- The state is in front of an instruction that keeps to the rules: a documented one, without VF,
without overflows, which writes only to the addresses `W`. -/
def Tame (b : Build) (W : Word → Prop) (mem : Mem) (c : Chip8 B R) : Prop :=
  ¬ (b.overflowChecks = true ∧ c.pc = 0xffff) ∧
  ∃ op, Valid op ∧ wordAt mem c.pc = encode op ∧ ¬ UsesVf c op ∧
    ¬ (b.overflowChecks = true ∧ Overflows c op) ∧
    ∀ n k, memSpan op = some n → k ≤ n → W (iPlus c k)

theorem writeAll_at {I : B → Mem → Prop} {W : Word → Prop} (hI : Coherent b I)
    (hacc : AcceptsAt b I W) (ws : List (Word × Byte)) (hW : ∀ w ∈ ws, W w.1) {bus : B} {mem : Mem}
    (h : I bus mem) : ∃ bus' mem', writeAll b bus ws = .ok bus' ∧ I bus' mem' := by
  induction ws generalizing bus mem with
  | nil => exact ⟨bus, mem, rfl, h⟩
  | cons w ws ih =>
    obtain ⟨a, v⟩ := w
    obtain ⟨r, bus', hw⟩ := hacc bus mem h a (hW (a, v) (by simp)) v
    simp only [writeAll, hw]
    exact ih (fun w hw => hW w (by simp [hw])) ((hI bus mem h).2 a v r bus' hw)

/-- A step from such a state does not panic; the machine stays well formed. -/
theorem C62_step {I : B → Mem → Prop} {W : Word → Prop} (hI : Coherent b I)
    (hacc : AcceptsAt b I W) (hm : I cpu.address_space mem) (hw : WellFormed cpu)
    (ht : Tame b W mem cpu) :
    ∃ c, StepsTo b e cpu c ∧ WellFormed c ∧ ∃ mem', I c.address_space mem' := by
  obtain ⟨h1, op, h2, h3, h4, h5, h6⟩ := ht
  have hv := (hI _ _ hm).1
  have hpc : b.overflowChecks = false ∨ cpu.pc.toNat < 65535 := by
    cases hb : b.overflowChecks
    · exact .inl rfl
    · right
      have := cpu.pc.isLt
      apply Nat.lt_of_le_of_ne (by omega)
      intro h
      exact h1 ⟨hb, BitVec.eq_of_toNat_eq h⟩
  have hat := (fetch_iff hv hpc op).2 ⟨h2, h3⟩
  have hs := step_ok (e := e) hat ⟨h4, h5⟩ (fun _ => hv) (fun _ => hw)
  obtain ⟨bus', mem', hwa, hm'⟩ := writeAll_at hI hacc (writes cpu op) (fun w hw' => by
    obtain ⟨n, k, h7, h8, h9⟩ := writes_span cpu op w hw'
    rw [h9]
    exact h6 n k h7 h8) hm
  unfold StepWrites at hs
  rw [hwa] at hs
  refine ⟨_, hs, ?_, mem', hm'⟩
  have hst : (StepsTo b e cpu { after e mem cpu op with address_space := bus' }) := hs
  by_cases hc : ChangesStack op
  · cases op <;> simp only [ChangesStack] at hc
    obtain ⟨-, h8, h9⟩ := C61_stack_cell hat hv hw hst (cpu.sp.inner.toNat % 16 + 1) (by omega)
    exact ⟨h8.trans hw.1, h9.trans hw.2⟩
  · unfold WellFormed
    rw [C61_stack hat hv hw hst hc]
    exact hw

/-- The iterator does the step as well, up to the instants of the timers. -/
theorem next_of_step (h : StepsTo b e cpu c) :
    ∃ mcs it, next b e cpu = .ok (mcs, it) ∧ SameButInstants it c := by
  unfold StepsTo at h
  rcases C59_iterator_agrees_partial (b := b) (env := fun _ => e) (cpu := cpu) 1 with
    ⟨p, -, h2⟩ | ⟨it, c', h1, h2, h3⟩
  · rw [h] at h2; cases h2
  · rw [h] at h2
    cases h2
    simp only [iterates] at h1
    cases hn : next b e cpu with
    | error p => rw [hn] at h1; cases h1
    | ok x =>
      rw [hn] at h1
      cases h1
      exact ⟨x.1, x.2, rfl, h3⟩

/-- C62: a run in which every instruction keeps to the rules does not panic, however long it is and
however the clock moves. -/
theorem C62_run {I : B → Mem → Prop} {W : Word → Prop} (hI : Coherent b I)
    (hacc : AcceptsAt b I W) (hm : I cpu.address_space mem) (hw : WellFormed cpu) (n : Nat)
    (ht : ∀ k < n, ∀ it mem', iterates b env k 0 cpu = .ok it → I it.address_space mem' →
      Tame b W mem' it) :
    ∃ c, run b env cpu n = .ok (.ready c) ∧ WellFormed c ∧ ∃ mem', I c.address_space mem' := by
  have hit : ∃ it, iterates b env n 0 cpu = .ok it ∧ WellFormed it ∧
      ∃ mem', I it.address_space mem' := by
    induction n with
    | zero => exact ⟨cpu, rfl, hw, mem, hm⟩
    | succ n ih =>
      obtain ⟨it, h1, h2, mem', h3⟩ := ih fun k hk => ht k (by omega)
      obtain ⟨c, h4, h5, mem₂, h6⟩ := C62_step (e := env n) hI hacc h3 h2
        (ht n (by omega) it mem' h1 h3)
      obtain ⟨mcs, it', h7, t, u, rfl⟩ := next_of_step h4
      refine ⟨it', ?_, h5, mem₂, h6⟩
      rw [iterates_add, h1, Res.ok_bind, Nat.zero_add]
      simp only [iterates]
      rw [h7]
      rfl
  obtain ⟨it, h1, h2, mem', h3⟩ := hit
  rcases C59_iterator_agrees_partial (b := b) (env := env) (cpu := cpu) n with
    ⟨p, h4, -⟩ | ⟨it', c, h4, h5, t, u, rfl⟩
  · rw [h1] at h4; cases h4
  · rw [h1] at h4
    cases h4
    exact ⟨_, h5, h2, mem', h3⟩

/-! ### The default machine -/

/-- The bus of the default machine, with any contents: 4K of RAM from address 0, nothing above. -/
def DefaultBus (b : Build) (m : AddressMap Memory) (mem : Mem) : Prop :=
  ∃ h, Spec.MemTrace b h m ∧ mem = (Spec.Bus.after h).val ∧
    ∀ a, (Spec.Bus.after h).owner a = if a.toNat < 0x1000 then some .readWrite else none

theorem defaultBus_coherent (b : Build) : Coherent b (DefaultBus b) := by
  rintro m mem ⟨h, ht, rfl, ho⟩
  obtain ⟨hv, hw⟩ := trace_coherent b m _ ⟨h, ht, rfl⟩
  refine ⟨hv, ?_⟩
  intro a v r m' hwr
  obtain ⟨h', ht', e'⟩ := hw a v r m' hwr
  refine ⟨h ++ [.write a v], .write ht hwr, ?_, ?_⟩
  · funext x
    have q1 := (ht.write hwr).inv.read b x
    have q2 := ht'.inv.read b x
    rw [e']
    rw [q1] at q2
    simpa using q2.symm
  · intro x
    rw [Spec.Bus.after_append]
    simp only [Spec.Bus.step]
    split
    · exact ho x
    · exact ho x

/-- It accepts every byte below 0x1000. -/
theorem C62_default_accepts (b : Build) :
    AcceptsAt b (DefaultBus b) (fun a => a.toNat < 0x1000) := by
  rintro m mem ⟨h, ht, rfl, ho⟩ a ha v
  obtain ⟨res, m', hw, -, hres⟩ := ht.inv.write b a v
  rw [ho a, if_pos ha] at hres
  subst hres
  exact ⟨v, m', hw⟩

/-- What happens to the bus while the default machine is built. -/
def defaultHistory : List Spec.BusEvent :=
  [.register .readWrite ⟨0x0000, 0x01ff⟩ (List.replicate 512 0),
   .register .readWrite ⟨0x0200, 0x0fff⟩ (List.replicate 3584 0)]

/-- The map of the default machine. -/
def defaultMap : AddressMap Memory :=
  ⟨[(⟨0x0200, 0x0fff⟩, ⟨.readWrite, 0x0200, 0x0fff, List.replicate 3584 0⟩),
    (⟨0x0000, 0x01ff⟩, ⟨.readWrite, 0x0000, 0x01ff, List.replicate 512 0⟩)]⟩

theorem defaultMap_new (b : Build) :
    Memory.new b .readWrite 0x0000 0x01ff =
      .ok ⟨.readWrite, 0x0000, 0x01ff, List.replicate 512 0⟩ ∧
    Memory.new b .readWrite 0x0200 0x0fff =
      .ok ⟨.readWrite, 0x0200, 0x0fff, List.replicate 3584 0⟩ := by
  constructor
  · unfold Memory.new; rw [if_pos (by decide)]; rfl
  · unfold Memory.new; rw [if_pos (by decide)]; rfl

theorem defaultMap_trace (b : Build) : Spec.MemTrace b defaultHistory defaultMap := by
  obtain ⟨n1, n2⟩ := defaultMap_new b
  have t1 : Spec.MemTrace b (defaultHistory.take 1) ⟨defaultMap.inner.drop 1⟩ :=
    .register (h := []) (r := ⟨0x0000, 0x01ff⟩) .new n1 rfl (by intro e he; cases he)
      ⟨_, rfl, List.Perm.refl _⟩
  exact .register (h := defaultHistory.take 1) (r := ⟨0x0200, 0x0fff⟩) t1 n2 rfl
      (by intro e he; apply not_overlap
          simp only [defaultMap, List.drop, List.mem_cons, List.not_mem_nil, or_false] at he
          subst he; decide)
      ⟨_, rfl, List.Perm.refl _⟩

/-- The default machine. -/
def defaultState {R : Type} (now : Instant) (rng : R) : Chip8 (AddressMap Memory) R where
  stack := Ring.new 16
  address_space := defaultMap
  dt := ⟨now, 0⟩
  st := ⟨now, 0⟩
  pc := 0x200
  sp := ⟨0⟩
  i := 0
  gp_registers := Vector.replicate 15 0
  display := Display.default
  interrupt := none
  rng := rng

theorem defaultCpu_eq {R : Type} (b : Build) (now : Instant) (rng : R) :
    defaultCpu b now rng = .ok (defaultState now rng) := by
  obtain ⟨n1, n2⟩ := defaultMap_new b
  simp only [defaultCpu, n1, n2, Res.ok_bind]
  rfl

theorem defaultBus_default (b : Build) {m : AddressMap Memory}
    (hm : defaultMap.inner.Perm m.inner) : DefaultBus b m (fun _ => 0) := by
  have h1 : (0x01ff : Word).toNat = 0x01ff := rfl
  have h2 : (0x0200 : Word).toNat = 0x0200 := rfl
  have h3 : (0x0fff : Word).toNat = 0x0fff := rfl
  refine ⟨defaultHistory, .rehash (defaultMap_trace b) hm, ?_, ?_⟩
  · funext a
    have z : ∀ n i : Nat, (List.replicate n (0 : Byte)).getD i 0 = 0 := by
      intro n i
      rw [List.getD_eq_getElem?_getD, List.getElem?_replicate]
      split <;> rfl
    simp only [Spec.Bus.after, defaultHistory, List.foldl, Spec.Bus.step, Spec.Bus.empty, z]
    split
    · rfl
    · split <;> rfl
  · intro a
    simp only [Spec.Bus.after, defaultHistory, List.foldl, Spec.Bus.step, Spec.Bus.empty,
      Spec.InRange, h1, h2, h3]
    by_cases ha : a.toNat < 0x1000
    · rw [if_pos ha]
      by_cases hb : 0x200 ≤ a.toNat
      · rw [if_pos (by omega)]
      · rw [if_neg (by omega), if_pos ⟨Nat.zero_le _, by omega⟩]
    · rw [if_neg ha, if_neg (by omega), if_neg]
      rintro ⟨-, h⟩
      omega

/-- Every program loaded into the default machine (any contents of its memory, any registers): if
its instructions keep to the rules and write below 0x1000 only, no run panics. -/
theorem C62_default {R : Type} {b : Build} {env : Nat → Env} {cpu : Chip8 (AddressMap Memory) R}
    {mem : Mem} (hm : DefaultBus b cpu.address_space mem) (hw : WellFormed cpu) (n : Nat)
    (ht : ∀ k < n, ∀ it mem', iterates b env k 0 cpu = .ok it →
      DefaultBus b it.address_space mem' → Tame b (fun a => a.toNat < 0x1000) mem' it) :
    ∃ c, run b env cpu n = .ok (.ready c) := by
  obtain ⟨c, h, -⟩ := C62_run (defaultBus_coherent b) (C62_default_accepts b) hm hw n ht
  exact ⟨c, h⟩

theorem sys_word (pc : Word) : wordAt (fun _ => 0) pc = encode (.Sys ⟨0⟩) := by
  simp [wordAt, encode, nnn]

/-- The freshly built machine, whose memory is all zeros (SYS 0), runs for ever: it meets the
hypotheses of `C62_default` for every number of instructions. -/
theorem C62_fresh {R : Type} (b : Build) (env : Nat → Env) (now : Instant) (rng : R) :
    ∃ cpu, defaultCpu b now rng = .ok cpu ∧
      ∀ m : AddressMap Memory, cpu.address_space.inner.Perm m.inner →
        ∀ n, ∃ c, run b env { cpu with address_space := m } n = .ok (.ready c) := by
  refine ⟨_, defaultCpu_eq b now rng, fun m hp n => ?_⟩
  have hm := defaultBus_default b (m := m) hp
  have sys : ∀ (c : Chip8 (AddressMap Memory) R), c.pc.toNat % 2 = 0 → c.address_space = m →
      Tame b (fun a => a.toNat < 0x1000) (fun _ => 0) c := by
    intro c hpc _
    refine ⟨?_, .Sys ⟨0⟩, ⟨by decide, by decide, by decide⟩, sys_word _, id, fun h => h.2, ?_⟩
    · rintro ⟨-, h⟩
      rw [h] at hpc
      revert hpc
      decide
    · intro n k h
      cases h
  have inv : ∀ k it, iterates b env k 0 { defaultState now rng with address_space := m } = .ok it →
      it.pc.toNat % 2 = 0 ∧ it.address_space = m ∧ WellFormed it := by
    intro k
    induction k with
    | zero =>
      intro it h
      cases h
      exact ⟨by show (0x200 : Word).toNat % 2 = 0; decide, rfl, rfl, rfl⟩
    | succ k ih =>
      intro it h
      rw [iterates_add] at h
      cases h1 : iterates b env k 0 { defaultState now rng with address_space := m } with
      | error p => rw [h1] at h; cases h
      | ok it₁ =>
        obtain ⟨i1, i2, i3⟩ := ih it₁ h1
        rw [h1, Res.ok_bind, Nat.zero_add] at h
        simp only [iterates] at h
        have hv : BusView b it₁.address_space (fun _ => 0) := by
          rw [i2]; exact (defaultBus_coherent b _ _ hm).1
        have hat : At b it₁ (.Sys ⟨0⟩) := by
          refine (fetch_iff hv ?_ _).2 ⟨⟨by decide, by decide, by decide⟩, sys_word _⟩
          right
          have := it₁.pc.isLt
          omega
        have hs : StepsTo b (env k) it₁ (advance it₁ 2) :=
          step_to (mem := fun _ => 0) hat ⟨id, fun h => h.2⟩ (by simp) (by simp) rfl
        obtain ⟨mcs, it₂, h2, t, u, h3⟩ := next_of_step hs
        rw [h2] at h
        obtain rfl : it = it₂ := (Except.ok.inj h).symm
        have e1 : it.pc = (advance it₁ 2).pc := by rw [h3]
        have e2 : it.address_space = it₁.address_space := by
          have := congrArg Chip8.address_space h3
          exact this.symm
        have e3 : it.stack = it₁.stack := by
          have := congrArg Chip8.stack h3
          exact this.symm
        refine ⟨?_, e2.trans i2, ?_⟩
        · rw [e1, advance_pc, BitVec.toNat_ofNat]
          omega
        · unfold WellFormed
          rw [e3]
          exact i3
  refine C62_default (mem := fun _ => 0) hm ⟨rfl, rfl⟩ n fun k _ it mem' h hb => ?_
  obtain ⟨i1, i2, i3⟩ := inv k it h
  have : mem' = fun _ => 0 := by
    rw [i2] at hb
    funext a
    have h1 := (defaultBus_coherent b _ _ hb).1 a
    have h2 := (defaultBus_coherent b _ _ hm).1 a
    rw [h1] at h2
    simpa using h2
  subst this
  exact sys it i1 i2

/-- A word that decodes to an instruction. -/
def decodes (b0 b1 : Byte) : Bool :=
  match decodeBytesToOpcode b0 b1 with
  | .ok (.ok _) => true
  | _ => false

/-- The word 0x8008 is no instruction. -/
example : ¬∃ op, Valid op ∧ 0x8008 = encode op := by
  rintro ⟨op, hv, h⟩
  have h1 : decodes 0x80 0x08 = true := by
    unfold decodes
    rw [C40_decode_encode op hv 0x80 0x08 h]
  have h2 : decodes 0x80 0x08 = false := by decide +kernel
  rw [h1] at h2
  cases h2

/-- ADD V0, V1 sets VF: `C62_panics` applies. -/
example : StepPanics .release ⟨0, 0, 0, 0⟩ (place sample (.AddVxVy .V0 .V1)) :=
  C62_panics (view _ _) (.inr (.inr ⟨.AddVxVy .V0 .V1, trivial, by decide, .inl trivial⟩))

/-- Fx55 with I = 0x1000 on the default bus: nothing is mapped there, so the step panics. -/
example : ∃ cpu : Chip8 (AddressMap Memory) Unit, ∀ m : AddressMap Memory,
    DefaultBus .release m (placeMem (fun _ => 0) 0x200 (.StoreRegistersToMemory .V0)) →
    StepPanics .release ⟨0, 0, 0, 0⟩ { cpu with address_space := m } := by
  refine ⟨{ defaultState 0 () with i := 0x1000 }, fun m hm => ?_⟩
  have hv := (defaultBus_coherent _ _ _ hm).1
  refine C62_panics_refused (op := .StoreRegistersToMemory .V0) (n := 0) hv ⟨rfl, rfl⟩
    ((C40_fetch hv (show (0x200 : Word).toNat < 65535 by decide) _).2 ⟨trivial, by
      show wordAt _ 0x200 = _; decide⟩) rfl ?_
  rintro v ⟨r, bus', hw⟩
  obtain ⟨h, ht, -, ho⟩ := hm
  obtain ⟨res, m', hw', -, hres⟩ := ht.inv.write .release 0x1000 v
  have hw : m.write .release 0x1000 v = .ok (.ok r, bus') := hw
  rw [hw] at hw'
  rw [ho] at hres
  simp only [Except.ok.injEq, Prod.mk.injEq] at hw'
  rw [← hw'.1] at hres
  have : ¬ (0x1000 : Word).toNat < 0x1000 := by decide
  rw [if_neg this] at hres
  cases hres

/-- Fx55 with I = 0xffe and V0 to V2: the third address is not mapped, so the step panics. -/
example : ∃ cpu : Chip8 (AddressMap Memory) Unit, ∀ m : AddressMap Memory,
    DefaultBus .release m (placeMem (fun _ => 0) 0x200 (.StoreRegistersToMemory .V2)) →
    StepPanics .release ⟨0, 0, 0, 0⟩ { cpu with address_space := m } := by
  refine ⟨{ defaultState 0 () with i := 0xffe }, fun m hm => ?_⟩
  have hv := (defaultBus_coherent _ _ _ hm).1
  refine C62_panics_block (P := fun bus => ∃ mem, DefaultBus .release bus mem) (op := .StoreRegistersToMemory .V2)
    (n := 2) (k := 2) ⟨_, hm⟩ (fun bus ⟨mem, h⟩ w v r bus' hw => ⟨_, (defaultBus_coherent _ _ _ h).2 w v r bus' hw⟩)
    ?_ hv ⟨rfl, rfl⟩ ((C40_fetch hv (show (0x200 : Word).toNat < 65535 by decide) _).2 ⟨trivial, by
      show wordAt _ 0x200 = _; decide⟩) rfl (by decide)
  rintro m' ⟨mem', h, ht, -, ho⟩ v ⟨r, bus', hw⟩
  obtain ⟨res, m'', hw', -, hres⟩ := ht.inv.write .release 0x1000 v
  have hw : m'.write .release 0x1000 v = .ok (.ok r, bus') := hw
  rw [hw] at hw'
  rw [ho] at hres
  simp only [Except.ok.injEq, Prod.mk.injEq] at hw'
  rw [← hw'.1] at hres
  have : ¬ (0x1000 : Word).toNat < 0x1000 := by decide
  rw [if_neg this] at hres
  cases hres

end Verif.Props.Chip8
