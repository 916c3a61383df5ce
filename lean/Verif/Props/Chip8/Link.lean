import Verif.Proofs.Chip8Link
import Verif.Props.Chip8.RunRel

/-!
# C115: a CHIP-8 program can be moved

A program moved by any distance, with the addresses of its jumps and calls adjusted (`patch`), does what the
original does: same registers, timers, display, data; the program counter and the return addresses on the
stack are moved.
-/

namespace Verif.Props.Chip8

open Verif Verif.Chip8 Verif.Spec.Chip8
open Verif.Mos (FlatRam flatRam_coherent writeAll_coherent writeAll_accepted)
open Verif.Spec.Mos (Mem BusView writeAll Coherent upd)

section
variable {B B' R R' : Type} [Addressable B] [Addressable B'] {b : Build} {I : B → Mem → Prop}
  {I' : B' → Mem → Prop} {W : Word → Prop} {k : Word} {P : Word → Prop} {S S' : Nat → Prop}
  {c c' : Chip8 B R} {d : Chip8 B' R'} {mem mem' : Mem} {op : Opcode} {e : Env} {env : Nat → Env}
  {l : List (Env × Opcode)}

/-- What is fetched is a documented instruction. -/
theorem at_word (hv : BusView b c.address_space mem) (hat : At b c op) :
    Valid op ∧ wordAt mem c.pc = encode op := by
  refine (fetch_iff hv ?_ op).1 hat
  cases hb : b.overflowChecks
  · exact .inl rfl
  · right
    have := c.pc.isLt
    rcases Nat.lt_or_ge c.pc.toNat 65535 with h | h
    · exact h
    exfalso
    have ha : addU16 b c.pc 1 = .error .overflow := if_pos ⟨hb, by show c.pc.toNat + 1 ≥ 65536; omega⟩
    unfold At fetch at hat
    simp only [hv _, ha, Res.ok_bind] at hat
    cases hat

/-- The moved instruction can be fetched: its two bytes do not run over the end of memory, or the build
does not check. -/
def FetchOk (b : Build) (pc : Word) : Prop := b.overflowChecks = false ∨ pc.toNat < 65535

/-- C115: one instruction. -/
theorem C115_step (hI : Coherent b I) (hI' : Coherent b I') (hacc : Spec.Mos.AcceptsAt b I' W)
    (hm : I c.address_space mem) (hm' : I' d.address_space mem') (hw : WellFormed c)
    (hw' : WellFormed d) (h : Linked k S c d) (hl : LinkedMem k P mem mem') (hat : At b c op)
    (hmv : Movable k P S c op) (hf : FetchOk b (c.pc + k))
    (hW : ∀ n j, memSpan op = some n → j ≤ n → W (iPlus c j)) (hs : StepsTo b e c c') :
    ∃ d' m m', At b d (patch k op) ∧ StepsTo b e d d' ∧ I c'.address_space m ∧
      I' d'.address_space m' ∧ WellFormed c' ∧ WellFormed d' ∧ LinkedMem k P m m' ∧
      Linked k (pushed S c op) c' d' := by
  have hv := (hI _ _ hm).1
  have hv' := (hI' _ _ hm').1
  obtain ⟨hva, hword⟩ := at_word hv hat
  have hat' : At b d (patch k op) := by
    refine (fetch_iff hv' (by rw [h.pc]; exact hf) _).2 ?_
    rw [h.pc]
    exact hl.code _ hmv.own op hva hword
  obtain ⟨hr, bus, hb, hc⟩ := step_inv hat hv hw hs
  obtain ⟨hr', hwr, hlk⟩ := linked_after (e := e) h hl hva hmv hr hw hw'
  have hlm := linkedMem_write hmv hl
  obtain ⟨bus', hb'⟩ := writeAll_accepted hI' hacc (writes c op) hm' fun w hw => by
    have := List.mem_map_of_mem (f := Prod.fst) hw
    rw [mem_writes] at this
    cases op <;> simp only [sets, List.mem_cons, List.not_mem_nil, or_false, reduceCtorEq] at this
    case LdK x => split at this <;> simp at this
    case LdBcd x =>
      obtain ⟨j, hj, he⟩ := List.mem_map.1 this
      rw [← Part.mem.inj he]
      exact hW 2 j rfl (by have := List.mem_range.1 hj; omega)
    case StoreRegistersToMemory x =>
      obtain ⟨j, hj, he⟩ := List.mem_map.1 this
      rw [← Part.mem.inj he]
      exact hW (num x) j rfl (by have := List.mem_range.1 hj; omega)
    case ReadRegistersFromMemory x =>
      obtain ⟨r, he, -⟩ := upTo_v this
      cases he
  have hst := step_ok (e := e) hat' hr' (fun _ => hv') (fun _ => hw')
  unfold StepWrites at hst
  rw [hwr, hb'] at hst
  have hst : StepsTo b e d { after e mem' d (patch k op) with address_space := bus' } := hst
  have hcm : I c'.address_space ((writes c op).foldl (fun m w => upd m w.1 w.2) mem) := by
    rw [hc]
    exact writeAll_coherent hI _ hm hb
  refine ⟨_, _, _, hat', hst, hcm, writeAll_coherent hI' _ hm' hb', wellFormed_step hat hv hw hs,
    wellFormed_step hat' hv' hw' hst, hlm, ?_⟩
  rw [hc]
  exact ⟨hlk.pc, hlk.v, hlk.i, hlk.sp, hlk.delay, hlk.sound, hlk.display, hlk.key, hlk.cell⟩

/-- C115: any execution of the program, in the same worlds. -/
theorem C115_moves (hI : Coherent b I) (hI' : Coherent b I') (hacc : Spec.Mos.AcceptsAt b I' W)
    (hm : I c.address_space mem) (hm' : I' d.address_space mem') (hw : WellFormed c)
    (hw' : WellFormed d) (h : Linked k S c d) (hl : LinkedMem k P mem mem')
    (hf : ∀ p, P p → FetchOk b (p + k)) (hx : Moves b k P S c l c' S')
    (hW : ∀ i c1 op, Does b c (l.take i) c1 → At b c1 op → ∀ n j, memSpan op = some n → j ≤ n →
      W (iPlus c1 j)) :
    ∃ d' m m', Does b d (l.map fun x => (x.1, patch k x.2)) d' ∧ I c'.address_space m ∧
      I' d'.address_space m' ∧ LinkedMem k P m m' ∧ Linked k S' c' d' := by
  induction hx generalizing d mem mem' with
  | nil c => exact ⟨d, mem, mem', .nil d, hm, hm', hl, h⟩
  | @cons S S' c c1 c2 e op l hat hs hmv _ ih =>
    obtain ⟨d1, m, m', q1, q2, q3, q4, q5, q6, q7, q8⟩ :=
      C115_step hI hI' hacc hm hm' hw hw' h hl hat hmv (hf _ hmv.own) (hW 0 c op (.nil c) hat) hs
    obtain ⟨d2, m2, m2', r1, r2⟩ := ih q3 q4 q5 q6 q8 q7 fun i c3 o hd =>
      hW (i + 1) c3 o (.cons hat hs hd)
    exact ⟨d2, m2, m2', .cons q1 q2 r1, r2⟩

/-- C115: `run` for any number of cycles and however the clock moves. `T i` are the stack cells that hold
return addresses of the program before instruction `i`. -/
theorem C115_run {T : Nat → Nat → Prop} {n : Nat} (hI : Coherent b I) (hI' : Coherent b I')
    (hacc : Spec.Mos.AcceptsAt b I' W)
    (hm : I c.address_space mem) (hm' : I' d.address_space mem') (hw : WellFormed c)
    (hw' : WellFormed d) (h : Linked k (T 0) c d) (hl : LinkedMem k P mem mem')
    (hf : ∀ p, P p → FetchOk b (p + k)) (hr : run b env c n = .ok (.ready c'))
    (hin : ∀ i c1 op, i < n → run b env c i = .ok (.ready c1) → At b c1 op →
      Movable k P (T i) c1 op ∧ (∀ j, T (i + 1) j → pushed (T i) c1 op j) ∧
      ∀ n j, memSpan op = some n → j ≤ n → W (iPlus c1 j)) :
    ∃ d' m m', run b env d n = .ok (.ready d') ∧ I c'.address_space m ∧ I' d'.address_space m' ∧
      LinkedMem k P m m' ∧ Linked k (T n) c' d' := by
  have key := run_related (b := b) (env := env) (c := c) (d := d) (n := n) (c' := c')
    (Rel := fun i c d => ∃ m m', I c.address_space m ∧ I' d.address_space m' ∧ WellFormed c ∧
      WellFormed d ∧ LinkedMem k P m m' ∧ Linked k (T i) c d)
    (fun _ _ _ ⟨_, _, _, _, _, _, _, h⟩ => h.delay) ?_ ⟨mem, mem', hm, hm', hw, hw', hl, h⟩ hr
  · obtain ⟨d', h1, m, m', h2, h3, -, -, h4, h5⟩ := key
    exact ⟨d', m, m', h1, h2, h3, h4, h5⟩
  · rintro i c1 it it' d1 e hi hc1 hsame ⟨m, m', g1, g2, g3, g4, g5, g6⟩ hs
    cases hfe : fetch b it with
    | error p =>
      exfalso
      unfold StepsTo at hs
      rw [run_one] at hs
      unfold next at hs
      rw [hfe] at hs
      cases hs
    | ok op =>
      have : Movable k P (T i) it op ∧ (∀ j, T (i + 1) j → pushed (T i) it op j) ∧
          ∀ n j, memSpan op = some n → j ≤ n → W (iPlus it j) := by
        obtain ⟨t, u, rfl⟩ := hsame
        obtain ⟨⟨a1, a2, a3, a4⟩, a5, a6⟩ := hin i _ op hi hc1 hfe
        refine ⟨⟨a1, a2, a3, a4⟩, fun j hj => ?_, a6⟩
        have := a5 j hj
        cases op <;> exact this
      obtain ⟨q1, q2, q3⟩ := this
      obtain ⟨d', m1, m1', r1, r2, r3, r4, r5, r6, r7, r8⟩ :=
        C115_step hI hI' hacc g1 g2 g3 g4 g6 g5 hfe q1 (hf _ q1.own) q3 hs
      exact ⟨d', r2, m1, m1', r3, r4, r5, r6, r7, ⟨r8.pc, r8.v, r8.i, r8.sp, r8.delay, r8.sound,
        r8.display, r8.key, fun j hj => r8.cell j (q2 j hj)⟩⟩
end

/-! ### A concrete case -/

/-- `CALL 0x206` at 0x200, `ADD V1, 2; RET` at 0x206. -/
def caller : Chip8 FlatRam Unit :=
  { sample with address_space := ⟨fun a =>
      if a = 0x200 then 0x22 else if a = 0x201 then 0x06 else if a = 0x206 then 0x71 else
      if a = 0x207 then 0x02 else if a = 0x208 then 0x00 else if a = 0x209 then 0xee else 0⟩ }

/-- Its instructions. -/
def callerAt (a : Word) : Prop := a = 0x200 ∨ a = 0x206 ∨ a = 0x208

/-- The program moved by 0x100, with its call adjusted, in a machine whose old stack differs. -/
def callerMoved : Chip8 FlatRam Bool :=
  { stack := { capacity := 16, inner := List.replicate 16 0xabc }
    address_space := ⟨fun a =>
      if a = 0x300 then 0x23 else if a = 0x301 then 0x06 else if a = 0x306 then 0x71 else
      if a = 0x307 then 0x02 else if a = 0x308 then 0x00 else if a = 0x309 then 0xee else 0⟩
    dt := sample.dt, st := sample.st, pc := 0x300, sp := sample.sp, i := sample.i
    gp_registers := sample.gp_registers, display := sample.display, interrupt := none, rng := false }

theorem caller_linked : Linked 0x100 (fun _ => False) caller callerMoved :=
  ⟨rfl, fun _ => rfl, rfl, rfl, rfl, rfl, rfl, rfl, fun _ h => h.elim⟩

theorem caller_linkedMem :
    LinkedMem 0x100 callerAt caller.address_space.mem callerMoved.address_space.mem := by
  refine ⟨fun p hp op hv hw => ?_, fun a h1 h2 => ?_⟩
  · rcases hp with rfl | rfl | rfl
    · have : op = .Call ⟨0x206⟩ := C40_unambiguous _ _ hv (by show (0x206 : Word).toNat < 0x1000; decide)
        (hw.symm.trans (by decide))
      subst this
      exact ⟨by show (0x206 + 0x100 : Word).toNat < 0x1000; decide, by decide⟩
    · have : op = .AddImmediate .V1 2 := C40_unambiguous _ _ hv trivial (hw.symm.trans (by decide))
      subst this
      exact ⟨trivial, by decide⟩
    · have : op = .Ret := C40_unambiguous _ _ hv trivial (hw.symm.trans (by decide))
      subst this
      exact ⟨trivial, by decide⟩
  · have n1 : ∀ x : Word, callerAt x → a ≠ x ∧ a ≠ x + 1 := fun x hx =>
      ⟨fun h => h1 (.inl (h ▸ hx)), fun h => h1 (.inr (by rw [h, BitVec.add_sub_cancel]; exact hx))⟩
    have n2 : ∀ x : Word, callerAt x → a ≠ x + 0x100 ∧ a ≠ x + 1 + 0x100 := fun x hx =>
      ⟨fun h => h2 (.inl (by rw [h, BitVec.add_sub_cancel]; exact hx)),
       fun h => h2 (.inr (by rw [h, BitVec.add_sub_cancel, BitVec.add_sub_cancel]; exact hx))⟩
    have a1 := n1 0x200 (.inl rfl)
    have a2 := n1 0x206 (.inr (.inl rfl))
    have a3 := n1 0x208 (.inr (.inr rfl))
    have b1 := n2 0x200 (.inl rfl)
    have b2 := n2 0x206 (.inr (.inl rfl))
    have b3 := n2 0x208 (.inr (.inr rfl))
    simp only [caller, callerMoved]
    exact ((if_neg b1.1).trans <| (if_neg b1.2).trans <| (if_neg b2.1).trans <| (if_neg b2.2).trans <|
      (if_neg b3.1).trans (if_neg b3.2)).trans ((if_neg a1.1).trans <| (if_neg a1.2).trans <|
      (if_neg a2.1).trans <| (if_neg a2.2).trans <| (if_neg a3.1).trans (if_neg a3.2)).symm

/-- `caller` after one instruction. -/
def caller1 : Chip8 FlatRam Unit := after1 .debug ⟨0, 0, 0, 0⟩ caller

/-- `caller` after two instructions. -/
def caller2 : Chip8 FlatRam Unit := after1 .debug ⟨0, 0, 0, 0⟩ caller1

theorem caller_moves : Moves .debug 0x100 callerAt (fun _ => False) caller
    [(⟨0, 0, 0, 0⟩, .Call ⟨0x206⟩), (⟨0, 0, 0, 0⟩, .AddImmediate .V1 2), (⟨0, 0, 0, 0⟩, .Ret)]
    (after1 .debug ⟨0, 0, 0, 0⟩ caller2) (fun j => False ∨ j = 3) := by
  have h0 : At .debug caller (.Call ⟨0x206⟩) := (C40_fetch (view _ _) (by decide +kernel) _).2
    ⟨by show (0x206 : Word).toNat < 0x1000; decide, by decide +kernel⟩
  have h1 : At .debug caller1 (.AddImmediate .V1 2) :=
    (C40_fetch (view _ _) (by decide +kernel) _).2 ⟨trivial, by decide +kernel⟩
  have h2 : At .debug caller2 .Ret :=
    (C40_fetch (view _ _) (by decide +kernel) _).2 ⟨trivial, by decide +kernel⟩
  refine .cons (c' := caller1) h0 (steps_after1 (by decide +kernel)) ⟨.inl rfl, nofun, nofun, nofun⟩
    (.cons (c' := caller2) h1 (steps_after1 (by decide +kernel))
      ⟨.inr (.inl (by decide +kernel)), nofun, nofun, nofun⟩
      (.cons h2 (steps_after1 (by decide +kernel))
        ⟨.inr (.inr (by decide +kernel)), nofun, fun _ => .inr ?_, nofun⟩ (.nil _)))
  decide +kernel

/-- The moved program calls its moved subroutine and returns to the moved address. -/
example : ∃ l d', Does .debug callerMoved l d' ∧ l.length = 3 ∧ V d' .V1 = 0 ∧
    d'.pc = (after1 .debug ⟨0, 0, 0, 0⟩ caller2).pc + 0x100 := by
  obtain ⟨d', m, m', h1, h2, h3, h4, h5⟩ := C115_moves (d := callerMoved) (flatRam_coherent _)
    (flatRam_coherent _) (flat_accepts _) rfl rfl ⟨rfl, rfl⟩ ⟨rfl, rfl⟩ caller_linked caller_linkedMem
    (fun p hp => .inr (by rcases hp with rfl | rfl | rfl <;> decide)) caller_moves
    fun _ _ _ _ _ _ _ _ _ => trivial
  exact ⟨_, d', h1, rfl, (h5.v .V1).trans (by decide +kernel), h5.pc⟩

/-- A run of the call alone, in any world. -/
example (env : Nat → Env) (c' : Chip8 FlatRam Unit) (hr : run .debug env caller 1 = .ok (.ready c')) :
    ∃ d', run .debug env callerMoved 1 = .ok (.ready d') ∧ d'.pc = c'.pc + 0x100 ∧
      d'.stack.inner[3]?.getD 0 = c'.stack.inner[3]?.getD 0 + 0x100 := by
  have h0 : At .debug caller (.Call ⟨0x206⟩) := (C40_fetch (view _ _) (by decide +kernel) _).2
    ⟨by show (0x206 : Word).toNat < 0x1000; decide, by decide +kernel⟩
  obtain ⟨d', m, m', h1, h2, h3, h4, h5⟩ := C115_run (b := .debug) (c := caller) (d := callerMoved)
    (k := 0x100) (P := callerAt) (n := 1) (env := env) (T := fun i j => i = 1 ∧ j = 3)
    (flatRam_coherent _) (flatRam_coherent _) (flat_accepts _) rfl rfl ⟨rfl, rfl⟩ ⟨rfl, rfl⟩
    ⟨rfl, fun _ => rfl, rfl, rfl, rfl, rfl, rfl, rfl, fun _ h => absurd h.1 (by decide)⟩ caller_linkedMem
    (fun p hp => .inr (by rcases hp with rfl | rfl | rfl <;> decide)) hr fun i c1 op hi q1 q2 => by
      obtain rfl : i = 0 := by omega
      cases run_ok_iff.1 q1
      cases (show fetch .debug caller = .ok op from q2).symm.trans h0
      exact ⟨⟨.inl rfl, nofun, nofun, nofun⟩, fun j hj => .inr hj.2, nofun⟩
  exact ⟨d', h1, h5.pc, h5.cell 3 ⟨rfl, rfl⟩⟩

end Verif.Props.Chip8
