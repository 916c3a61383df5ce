import Verif.Proofs.Chip8Sample
import Verif.Proofs.Chip8Uses
import Verif.Proofs.MosProgram
import Verif.Props.Chip8.RunWorld
import Verif.Props.Chip8.FrameRun

/-!
# C114: what a CHIP-8 execution does not look at does not matter

Two machines that differ in some registers, stack cells, timers, bytes of memory and so on do the same as
long as no instruction looks at one of these before it has been given a new value. `uses` and `sets`
(`Verif.Spec.Chip8Uses`) say what an instruction looks at and what it gives a value.
-/

namespace Verif.Props.Chip8

open Verif Verif.Chip8 Verif.Spec.Chip8
open Verif.Mos (FlatRam flatRam_coherent writeAll_coherent writeAll_accepted)
open Verif.Spec.Mos (Mem BusView writeAll Coherent upd)

section
variable {B B' R R' : Type} [Addressable B] [Addressable B'] {b : Build} {I : B → Mem → Prop}
  {I' : B' → Mem → Prop} {W : Word → Prop} {D D' : Part → Prop} {c c' : Chip8 B R} {d : Chip8 B' R'}
  {mem mem' : Mem} {op : Opcode} {e : Env} {env : Nat → Env} {l : List (Env × Opcode)}

/-- C114: one instruction that looks at nothing in which the machines may differ: the other machine
executes it too, and afterwards the machines agree in what it has set as well. -/
theorem C114_step (hI : Coherent b I) (hI' : Coherent b I') (hacc : Spec.Mos.AcceptsAt b I' W)
    (hm : I c.address_space mem) (hm' : I' d.address_space mem') (hw : WellFormed c)
    (hw' : WellFormed d) (h : Agree D c d mem mem') (hat : At b c op)
    (hu : ∀ p ∈ uses c op, ¬D p) (hW : ∀ a, .mem a ∈ sets c op → W a) (hs : StepsTo b e c c') :
    ∃ d' m m', At b d op ∧ StepsTo b e d d' ∧ I c'.address_space m ∧ I' d'.address_space m' ∧
      WellFormed c' ∧ WellFormed d' ∧ Agree (fun p => D p ∧ p ∉ sets c op) c' d' m m' := by
  have hv := (hI _ _ hm).1
  have hv' := (hI' _ _ hm').1
  have hown : ∀ p ∈ ownBytes c, Same c d mem mem' p := fun p hp =>
    h.same p (hu p (by simp [uses, hp]))
  have hlook : ∀ p ∈ looksAt c op, ¬D p := fun p hp => hu p (by simp [uses, hp])
  have hat' : At b d op := by
    unfold At
    rw [fetch_used hv hv' h.pc hown]
    exact hat
  obtain ⟨hr, bus, hb, hc⟩ := step_inv hat hv hw hs
  have hr' := runs_used (fun p hp => h.same p (hlook p hp)) hr
  have hwr := writes_used fun p hp => h.same p (hlook p hp)
  have hag := agree_step (e := e) hr hw hw' h hlook
  obtain ⟨bus', hb'⟩ := writeAll_accepted hI' hacc (writes c op) hm' fun w hw =>
    hW _ (mem_writes.1 (List.mem_map_of_mem hw))
  have hst := step_ok (e := e) hat' hr' (fun _ => hv') (fun _ => hw')
  unfold StepWrites at hst
  rw [hwr, hb'] at hst
  have hst : StepsTo b e d { after e mem' d op with address_space := bus' } := hst
  have hcm : I c'.address_space ((writes c op).foldl (fun m w => upd m w.1 w.2) mem) := by
    rw [hc]
    exact writeAll_coherent hI _ hm hb
  refine ⟨_, _, _, hat', hst, hcm, writeAll_coherent hI' _ hm' hb', wellFormed_step hat hv hw hs,
    wellFormed_step hat' hv' hw' hst, ?_⟩
  rw [hc]
  exact agree_bus hag _ _

/-- C114: any execution along which what may differ is not looked at. The other machine executes the same
instructions, in the same worlds. -/
theorem C114_does (hI : Coherent b I) (hI' : Coherent b I') (hacc : Spec.Mos.AcceptsAt b I' W)
    (hm : I c.address_space mem) (hm' : I' d.address_space mem') (hw : WellFormed c)
    (hw' : WellFormed d) (h : Agree D c d mem mem') (hx : Unseen b D c l c' D')
    (hW : ∀ k c1 op, Does b c (l.take k) c1 → At b c1 op → ∀ a, .mem a ∈ sets c1 op → W a) :
    ∃ d' m m', Does b d l d' ∧ I c'.address_space m ∧ I' d'.address_space m' ∧ Agree D' c' d' m m' := by
  induction hx generalizing d mem mem' with
  | nil c => exact ⟨d, mem, mem', .nil d, hm, hm', h⟩
  | @cons D D' c c1 c2 e op l hat hs hu _ ih =>
    obtain ⟨d1, m, m', q1, q2, q3, q4, q5, q6, q7⟩ :=
      C114_step hI hI' hacc hm hm' hw hw' h hat hu (hW 0 c op (.nil c) hat) hs
    obtain ⟨d2, m2, m2', r1, r2⟩ := ih q3 q4 q5 q6 q7 fun k c3 o hd =>
      hW (k + 1) c3 o (.cons hat hs hd)
    exact ⟨d2, m2, m2', .cons q1 q2 r1, r2⟩

theorem stepsTo_next (hc : e.iterAt = e.foldAt) :
    StepsTo b e c c' ↔ (next b e c >>= fun x => .ok x.2) = .ok c' := by
  unfold StepsTo
  rw [run_eq_iterates (fun _ => hc)]
  show ((next b e c >>= fun x => iterates b (fun _ => e) 0 1 x.2) : Res _).map _ = _ ↔ _
  cases next b e c with
  | error p => exact ⟨nofun, nofun⟩
  | ok x =>
    simp only [Res.ok_bind, iterates, Except.map, Except.ok.injEq, StepState.ready.injEq]

theorem iterates_step (n : Nat) {it : Chip8 B R} (h : iterates b env n 0 c = .ok it) :
    iterates b env (n + 1) 0 c = (next b (env n) it >>= fun x => .ok x.2) := by
  rw [iterates_add, h, Res.ok_bind, Nat.zero_add]
  rfl

theorem runLoop_step (n : Nat) {it d : Chip8 B R} (h : iterates b env n 0 c = .ok it)
    (h' : runLoop b env n 0 c c = .ok d) (hs : SameButInstants it d) :
    runLoop b env (n + 1) 0 c c = (next b (shifted (env n) it d) d >>= fun x => .ok x.2) := by
  rw [runLoop_last n 0 (same_refl c), h, h', next_shifted hs, Res.ok_bind, Res.ok_bind, Nat.zero_add]

theorem run_ok_iff {n : Nat} : run b env c n = .ok (.ready c') ↔ runLoop b env n 0 c c = .ok c' := by
  unfold run
  cases runLoop b env n 0 c c with
  | error p => exact ⟨nofun, nofun⟩
  | ok x =>
    show Except.ok (StepState.ready x) = _ ↔ _
    simp

/-- C114: `run` for any number of cycles, however the clock moves, if no instruction executed looks at `D`:
the other machine runs too, and the machines agree outside `D` again. (Instructions that need VF do not
count: they end the run with a panic.) -/
theorem C114_run (hI : Coherent b I) (hI' : Coherent b I') (hacc : Spec.Mos.AcceptsAt b I' W)
    (hm : I c.address_space mem) (hm' : I' d.address_space mem') (hw : WellFormed c)
    (hw' : WellFormed d) (h : Agree D c d mem mem') {n : Nat} (hr : run b env c n = .ok (.ready c'))
    (hin : ∀ k c1 op, k < n → run b env c k = .ok (.ready c1) → At b c1 op → ¬UsesVf c1 op →
      (∀ p ∈ uses c1 op, ¬D p) ∧ ∀ a, .mem a ∈ sets c1 op → W a) :
    ∃ d' m m', run b env d n = .ok (.ready d') ∧ I c'.address_space m ∧ I' d'.address_space m' ∧
      Agree D c' d' m m' := by
  suffices H : ∃ it it2 d' m m', iterates b env n 0 c = .ok it ∧ iterates b env n 0 d = .ok it2 ∧
      runLoop b env n 0 d d = .ok d' ∧ SameButInstants it c' ∧ SameButInstants it2 d' ∧
      I c'.address_space m ∧ I' d'.address_space m' ∧ WellFormed c' ∧ WellFormed d' ∧
      Agree D it it2 m m' ∧ Agree D c' d' m m' by
    obtain ⟨it, it2, d', m, m', -, -, h1, -, -, h2, h3, -, -, -, h4⟩ := H
    exact ⟨d', m, m', run_ok_iff.2 h1, h2, h3, h4⟩
  rw [run_ok_iff] at hr
  induction n generalizing c' with
  | zero =>
    cases hr
    exact ⟨c, d, d, mem, mem', rfl, rfl, rfl, same_refl c, same_refl d, hm, hm', hw, hw', h, h⟩
  | succ n ih =>
    rcases same_loop (b := b) (env := env) n 0 (same_refl c) with ⟨p, h1, -⟩ | ⟨it, c1, h1, h2, h3⟩
    · rw [runLoop_last n 0 (same_refl c), h1] at hr
      cases hr
    obtain ⟨it', it2, d1, m, m', i1, i2, i3, i4, i5, i6, i7, i8, i9, i10, i11⟩ :=
      ih h2 fun k c1 op hk => hin k c1 op (by omega)
    rw [h1] at i1
    cases i1
    rw [runLoop_step n h1 h2 h3, ← stepsTo_next rfl] at hr
    rcases same_loop (b := b) (env := env) (n + 1) 0 (same_refl c) with
      ⟨p, -, j1⟩ | ⟨it', c1', j1, j2, j3⟩
    · rw [runLoop_step n h1 h2 h3] at j1
      rw [stepsTo_next rfl, j1] at hr
      cases hr
    rw [runLoop_step n h1 h2 h3] at j2
    have hcc : c1' = c' := by
      rw [stepsTo_next rfl, j2] at hr
      cases hr
      rfl
    subst hcc
    rw [iterates_step n h1] at j1
    have hit : StepsTo b { env n with foldAt := (env n).iterAt } it it' := (stepsTo_next rfl).2 j1
    cases hf : fetch b c1 with
    | error p =>
      rw [stepsTo_next rfl] at hr
      unfold next at hr
      rw [hf] at hr
      cases hr
    | ok op =>
      have hvf : ¬UsesVf c1 op := (step_inv hf (hI _ _ i6).1 i8 hr).1.1
      obtain ⟨q1, q2⟩ := hin n c1 op (by omega) (run_ok_iff.2 h2) hf hvf
      have hsame : uses it op = uses c1 op ∧ sets it op = sets c1 op ∧ fetch b it = .ok op ∧
          it.address_space = c1.address_space ∧ WellFormed it := by
        obtain ⟨t, u, rfl⟩ := h3
        exact ⟨by cases op <;> rfl, by cases op <;> rfl, hf, rfl, i8⟩
      have hsame2 : it2.address_space = d1.address_space ∧ WellFormed it2 := by
        obtain ⟨t, u, rfl⟩ := i5
        exact ⟨rfl, i9⟩
      obtain ⟨d', m1, m1', r1, r2, r3, r4, r5, r6, r7⟩ :=
        C114_step hI hI' hacc i6 i7 i8 i9 i11 hf q1 q2 hr
      obtain ⟨it2', m2, m2', s1, s2, s3, s4, s5, s6, s7⟩ :=
        C114_step hI hI' hacc (by rw [hsame.2.2.2.1]; exact i6) (by rw [hsame2.1]; exact i7)
          hsame.2.2.2.2 hsame2.2 i10 hsame.2.2.1 (by rw [hsame.1]; exact q1)
          (by rw [hsame.2.1]; exact q2) hit
      have hd : StepsTo b (shifted (env n) it2 d1) d1 d' := by
        by_cases hop : ∃ x, op = .LdDelayTimerSrcTx x
        · obtain ⟨x, rfl⟩ := hop
          have hD : ¬D .delay := q1 _ (by simp [uses, looksAt])
          have e1 : it2.dt = it.dt := i10.same _ hD
          have e2 : d1.dt = c1.dt := i11.same _ hD
          have : shifted (env n) it2 d1 = shifted (env n) it c1 := by
            unfold shifted
            rw [e1, e2]
          rw [this]
          exact r2
        · exact (stepsTo_readAt (e := shifted (env n) it c1) r1 (fun x hx => hop ⟨x, hx⟩)).2 r2
      have hr1 : runLoop b env (n + 1) 0 d d = .ok d' := by
        rw [runLoop_step n i2 i3 i5]
        exact (stepsTo_next rfl).1 hd
      have hr2 : iterates b env (n + 1) 0 d = .ok it2' := by
        rw [iterates_step n i2]
        exact (stepsTo_next (e := { env n with foldAt := (env n).iterAt }) rfl).1 s2
      have hs2 : SameButInstants it2' d' := by
        rcases same_loop (b := b) (env := env) (n + 1) 0 (same_refl d) with ⟨p, z1, -⟩ | ⟨x, y, z1, z2, z3⟩
        · rw [hr2] at z1
          cases z1
        · rw [hr2] at z1
          rw [hr1] at z2
          cases z1
          cases z2
          exact z3
      have hbus : it'.address_space = c1'.address_space := by obtain ⟨t, u, rfl⟩ := j3; rfl
      have hbus2 : it2'.address_space = d'.address_space := by obtain ⟨t, u, rfl⟩ := hs2; rfl
      have hm2 : m2 = m1 := funext fun a => by
        have z1 := (hI _ _ s3).1 a
        rw [hbus, (hI _ _ r3).1 a] at z1
        exact (Except.ok.inj z1).symm
      have hm2' : m2' = m1' := funext fun a => by
        have z1 := (hI' _ _ s4).1 a
        rw [hbus2, (hI' _ _ r4).1 a] at z1
        exact (Except.ok.inj z1).symm
      subst hm2 hm2'
      exact ⟨it', it2', d', m2, m2', by rw [iterates_step n h1]; exact j1, hr2, hr1, j3, hs2, r3, r4, r5, r6,
        agree_mono (fun _ h => h.1) s7, agree_mono (fun _ h => h.1) r7⟩

/-- What no instruction that runs looks at. -/
def idle (p : Part) : Prop := p = .display ∨ p = .sound ∨ p = .v .Vf

omit [Addressable B] in
theorem idle_unused (hop : ¬UsesVf c op) : ∀ p ∈ uses c op, ¬idle p := by
  have hv : ∀ r, r ≠ .Vf → ¬idle (.v r) := by
    rintro r hr (h | h | h)
    · cases h
    · cases h
    · cases h; exact hr rfl
  have hmem : ∀ a, ¬idle (.mem a) := by rintro a (h | h | h) <;> cases h
  have hi : ¬idle .i := by rintro (h | h | h) <;> cases h
  have hk : ¬idle .key := by rintro (h | h | h) <;> cases h
  have hsp : ¬idle .sp := by rintro (h | h | h) <;> cases h
  have hce : ∀ k, ¬idle (.cell k) := by rintro k (h | h | h) <;> cases h
  have hd : ¬idle .delay := by rintro (h | h | h) <;> cases h
  intro p hp
  simp only [uses, ownBytes, List.mem_append, List.mem_cons, List.not_mem_nil, or_false] at hp
  rcases hp with (rfl | rfl) | hp
  · exact hmem _
  · exact hmem _
  cases op <;> simp only [UsesVf, not_true, not_or] at hop <;>
    simp only [looksAt, List.mem_cons, List.not_mem_nil, or_false] at hp
  case StoreRegistersToMemory x =>
    rcases hp with rfl | hp
    · exact hi
    · obtain ⟨r, rfl, hr⟩ := upTo_v hp
      refine hv r fun h => hop ?_
      subst h
      cases x <;> first | rfl | (revert hr; decide)
  case ReadRegistersFromMemory x =>
    rcases hp with rfl | hp
    · exact hi
    · obtain ⟨k, -, rfl⟩ := List.mem_map.1 hp
      exact hmem _
  case JpV0Indexed a => subst hp; exact hv _ (by decide)
  all_goals
    rcases hp with rfl | rfl <;>
      first | assumption | exact hv _ hop.1 | exact hv _ hop.2 | exact hv _ hop | exact hce _

/-- C114: the display, the sound timer and the generator influence no run. -/
theorem C114_idle (hI : Coherent b I) (hI' : Coherent b I')
    (hacc : Spec.Mos.AcceptsAt b I' fun _ => True)
    (hm : I c.address_space mem) (hm' : I' d.address_space mem') (hw : WellFormed c)
    (hw' : WellFormed d) (h : Agree idle c d mem mem') {n : Nat}
    (hr : run b env c n = .ok (.ready c')) :
    ∃ d' m m', run b env d n = .ok (.ready d') ∧ I c'.address_space m ∧ I' d'.address_space m' ∧
      Agree idle c' d' m m' :=
  C114_run hI hI' hacc hm hm' hw hw' h hr fun _ _ _ _ _ _ hop =>
    ⟨idle_unused hop, fun _ _ => trivial⟩
end

/-! ### A concrete case -/

theorem flat_accepts (b : Build) :
    Spec.Mos.AcceptsAt b (fun (m : FlatRam) mem => m.mem = mem) fun _ => True :=
  fun _ _ _ _ _ _ => ⟨_, _, rfl⟩

/-- What `LD V1, 123; LD I, 0x300; LD B, V1` does not need: V1, I, the delay timer, the stack and the
three bytes it writes. -/
def junk : Part → Prop
  | .v .V1 | .i | .delay | .cell _ => True
  | .mem a => a = 0x300 ∨ a = 0x301 ∨ a = 0x302
  | _ => False

/-- The machine with all of that different. -/
def junkProgram : Chip8 FlatRam Bool where
  stack := { capacity := 16, inner := List.replicate 16 0x123 }
  address_space := ⟨fun a =>
    if a = 0x300 ∨ a = 0x301 ∨ a = 0x302 then 0xee else bcdProgram.address_space.mem a⟩
  dt := ⟨17, 0x99⟩
  st := bcdProgram.st
  pc := bcdProgram.pc
  sp := bcdProgram.sp
  i := 0x777
  gp_registers := bcdProgram.gp_registers.set 1 0x55
  display := bcdProgram.display
  interrupt := none
  rng := true

theorem junk_agree :
    Agree junk bcdProgram junkProgram bcdProgram.address_space.mem junkProgram.address_space.mem := by
  refine ⟨rfl, fun p hp => ?_⟩
  cases p with
  | v r => cases r <;> first | exact absurd trivial hp | rfl
  | i => exact absurd trivial hp
  | delay => exact absurd trivial hp
  | cell k => exact absurd trivial hp
  | mem a =>
    show (if a = 0x300 ∨ a = 0x301 ∨ a = 0x302 then 0xee else bcdProgram.address_space.mem a) = _
    exact if_neg hp
  | _ => rfl

/-- The three instructions do not look at it, and set all of it but the delay timer and the stack. -/
theorem junk_unseen : ∃ c' D', Unseen .debug junk bcdProgram
    [(⟨0, 0, 0, 0⟩, .LdImmediate .V1 123), (⟨0, 0, 0, 0⟩, .LdAbsolute ⟨0x300⟩), (⟨0, 0, 0, 0⟩, .LdBcd .V1)]
    c' D' ∧ ∀ p, D' p → p = .delay ∨ ∃ k, p = .cell k := by
  refine ⟨after1 .debug ⟨0, 0, 0, 0⟩ bcd2, _,
    .cons (c' := bcd1) rfl (steps_after1 (by decide +kernel)) ?_
      (.cons (c' := bcd2) bcd_at1 (steps_after1 (by decide +kernel)) ?_
        (.cons bcd_at2 (steps_after1 (by decide +kernel)) ?_ (.nil _))), ?_⟩
  · have : uses bcdProgram (.LdImmediate .V1 123) = [.mem 0x200, .mem 0x201] := rfl
    rw [this]
    intro p hp
    simp only [List.mem_cons, List.not_mem_nil, or_false] at hp
    rcases hp with rfl | rfl <;> simp only [junk] <;> decide
  · have : uses bcd1 (.LdAbsolute ⟨0x300⟩) = [.mem 0x202, .mem 0x203] := by decide +kernel
    rw [this]
    intro p hp
    simp only [List.mem_cons, List.not_mem_nil, or_false] at hp
    rintro ⟨h, -⟩
    revert h
    rcases hp with rfl | rfl <;> simp only [junk] <;> decide
  · have : uses bcd2 (.LdBcd .V1) = [.mem 0x204, .mem 0x205, .i, .v .V1] := by decide +kernel
    rw [this]
    intro p hp
    simp only [List.mem_cons, List.not_mem_nil, or_false] at hp
    rintro ⟨⟨h, h1⟩, h2⟩
    rcases hp with rfl | rfl | rfl | rfl
    · revert h; simp only [junk]; decide
    · revert h; simp only [junk]; decide
    · exact h2 (by decide)
    · exact h1 (by decide)
  · rintro p ⟨⟨⟨h, h1⟩, h2⟩, h3⟩
    have e : sets bcd2 (.LdBcd .V1) = [.mem 0x300, .mem 0x301, .mem 0x302] := by decide +kernel
    rw [e] at h3
    cases p with
    | v r => cases r <;> first | exact h.elim | exact absurd (by decide) h1
    | i => exact absurd (by decide) h2
    | delay => exact .inl rfl
    | cell k => exact .inr ⟨k, rfl⟩
    | mem a =>
      exfalso
      apply h3
      rcases h with rfl | rfl | rfl <;> decide
    | _ => exact h.elim

/-- So the other machine, which has another V1, I, delay timer, stack and bytes at 0x300, also runs them,
and then has the same V1, I and bytes at 0x300. -/
example : ∃ l d', Does .debug junkProgram l d' ∧ V d' .V1 = 123 ∧ d'.i = 0x300 ∧
    d'.address_space.mem 0x302 = 3 := by
  obtain ⟨c', D', h1, h2⟩ := junk_unseen
  obtain ⟨d', m, m', h3, h4, h5, h6⟩ := C114_does (d := junkProgram) (flatRam_coherent _)
    (flatRam_coherent _) (flat_accepts _) rfl rfl ⟨rfl, rfl⟩ ⟨rfl, rfl⟩ junk_agree h1 fun _ _ _ _ _ _ _ => trivial
  have hc : c' = after1 .debug ⟨0, 0, 0, 0⟩ bcd2 := by
    cases h1 with
    | cons _ q1 _ h1 => cases h1 with
      | cons _ q2 _ h1 => cases h1 with
        | cons _ q3 _ h1 =>
          cases h1
          have e1 := steps_after1 (b := .debug) (e := ⟨0, 0, 0, 0⟩) (c := bcdProgram) (by decide +kernel)
          have e2 := steps_after1 (b := .debug) (e := ⟨0, 0, 0, 0⟩) (c := bcd1) (by decide +kernel)
          have e3 := steps_after1 (b := .debug) (e := ⟨0, 0, 0, 0⟩) (c := bcd2) (by decide +kernel)
          unfold StepsTo at q1 q2 q3 e1 e2 e3
          rw [e1] at q1
          cases q1
          erw [e2] at q2
          cases q2
          erw [e3] at q3
          cases q3
          rfl
  subst hc
  have hn : ∀ p, p ≠ .delay → (∀ k, p ≠ .cell k) → ¬D' p := fun p h7 h8 h9 => by
    rcases h2 p h9 with h | ⟨k, h⟩
    · exact h7 h
    · exact h8 k h
  have e1 : V d' .V1 = _ := h6.same (.v .V1) (hn _ (by simp) (by simp))
  have e2 : d'.i = _ := h6.same .i (hn _ (by simp) (by simp))
  have e3 : m' 0x302 = m 0x302 := h6.same (.mem 0x302) (hn _ (by simp) (by simp))
  refine ⟨_, d', h3, e1.trans (by decide +kernel), e2.trans (by decide +kernel), ?_⟩
  rw [h5, e3, ← h4]
  decide +kernel

/-- A clock that moves on during every instruction. -/
def busyEnv (k : Nat) : Env := ⟨0, 10 * k, 10 * k + 3, 10 * k + 7⟩

/-- A run of the three instructions does not look at the delay timer. -/
theorem bcd_not_delay : ∀ k, k < 3 → ∀ c1 op, run .debug busyEnv bcdProgram k = .ok (.ready c1) →
    At .debug c1 op → ∀ p ∈ uses c1 op, p ≠ .delay := by
  have key : ∀ k, k < 3 → (match run .debug busyEnv bcdProgram k with
      | .ok s => match fetch .debug s.unwrap with
        | .ok op => decide (∀ p ∈ uses s.unwrap op, p ≠ .delay)
        | .error _ => true
      | .error _ => true) = true := by decide +kernel
  intro k hk c1 op h1 h2
  have := key k hk
  rw [h1] at this
  simp only [StepState.unwrap] at this
  rw [show fetch .debug c1 = .ok op from h2] at this
  exact of_decide_eq_true this

example : ∃ c' d', run .debug busyEnv bcdProgram 3 = .ok (.ready c') ∧
    run .debug busyEnv { bcdProgram with dt := ⟨17, 0x99⟩ } 3 = .ok (.ready d') ∧ V c' .V1 = 123 ∧
    V d' .V1 = 123 := by
  obtain ⟨c', h1, h2⟩ : ∃ c', run .debug busyEnv bcdProgram 3 = .ok (.ready c') ∧ V c' .V1 = 123 := by
    have h : (match run .debug busyEnv bcdProgram 3 with
      | .ok (.ready c) => decide (V c .V1 = 123)
      | _ => false) = true := by decide +kernel
    split at h
    · next c hc => exact ⟨c, hc, of_decide_eq_true h⟩
    · cases h
  have hag : Agree (fun p => p = .delay) bcdProgram { bcdProgram with dt := ⟨17, 0x99⟩ }
      bcdProgram.address_space.mem bcdProgram.address_space.mem :=
    ⟨rfl, fun p hp => by cases p <;> first | exact absurd rfl hp | rfl⟩
  obtain ⟨d', m, m', h3, -, -, h4⟩ := C114_run (flatRam_coherent _) (flatRam_coherent _)
    (flat_accepts _) rfl rfl ⟨rfl, rfl⟩ ⟨rfl, rfl⟩ hag h1 fun k c1 op hk q1 q2 _ =>
      ⟨bcd_not_delay k hk c1 op q1 q2, fun _ _ => trivial⟩
  exact ⟨c', d', h1, h3, h2, (h4.same (.v .V1) (by simp)).trans h2⟩

end Verif.Props.Chip8
