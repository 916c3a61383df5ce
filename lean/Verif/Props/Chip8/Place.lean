import Verif.Proofs.Chip8Place
import Verif.Props.Chip8.Link

/-!
# C127: the data of a CHIP-8 program can be put elsewhere

A program whose loads of I are adjusted to new places of its data does with the data there what the original does:
same registers, timers, display, stack and program counter; I points at the new place.
-/

namespace Verif.Props.Chip8

open Verif Verif.Chip8 Verif.Spec.Chip8
open Verif.Mos (FlatRam flatRam_coherent writeAll_coherent writeAll_accepted)
open Verif.Spec.Mos (Mem BusView writeAll Coherent upd)

section
variable {B B' R R' : Type} [Addressable B] [Addressable B'] {b : Build} {I : B → Mem → Prop}
  {I' : B' → Mem → Prop} {W : Word → Prop} {f : Word → Word} {P : Word → Prop}
  {c c' : Chip8 B R} {d : Chip8 B' R'} {mem mem' : Mem} {op : Opcode} {e : Env} {env : Nat → Env}
  {l : List (Env × Opcode)}

/-- C127: one instruction. `f` gives the new place of every byte. -/
theorem C127_step (hf : ∀ a a', f a = f a' → a = a') (hI : Coherent b I) (hI' : Coherent b I')
    (hacc : Spec.Mos.AcceptsAt b I' W)
    (hm : I c.address_space mem) (hm' : I' d.address_space mem') (hw : WellFormed c)
    (hw' : WellFormed d) (h : Placed f c d) (hl : PlacedMem f P mem mem') (hat : At b c op)
    (hp : Placeable b f P c op)
    (hW : ∀ n j, memSpan op = some n → j ≤ n → W (f (iPlus c j))) (hs : StepsTo b e c c') :
    ∃ d' m m', At b d (readdress f op) ∧ StepsTo b e d d' ∧ I c'.address_space m ∧
      I' d'.address_space m' ∧ WellFormed c' ∧ WellFormed d' ∧ PlacedMem f P m m' ∧ Placed f c' d' := by
  have hv := (hI _ _ hm).1
  have hv' := (hI' _ _ hm').1
  obtain ⟨hva, hword⟩ := at_word hv hat
  have hfo : FetchOk b c.pc := by
    cases hb : b.overflowChecks
    · exact .inl hb
    · right
      have := c.pc.isLt
      rcases Nat.lt_or_ge c.pc.toNat 65535 with h | h
      · exact h
      exfalso
      have ha : addU16 b c.pc 1 = .error .overflow := if_pos ⟨hb, by show c.pc.toNat + 1 ≥ 65536; omega⟩
      unfold At fetch at hat
      simp only [hv _, ha, Res.ok_bind] at hat
      cases hat
  have hat' : At b d (readdress f op) := by
    refine (fetch_iff hv' (by rw [h.pc]; exact hfo) _).2 ?_
    rw [h.pc]
    exact hl.code _ hp.own op hva hword
  obtain ⟨hr, bus, hb, hc⟩ := step_inv hat hv hw hs
  obtain ⟨hr', hwr, hlk⟩ := placed_after (e := e) h hl hp hr hw hw'
  have hspan : ∀ w ∈ writes c op, ∃ n j, memSpan op = some n ∧ dataSpan op = some n ∧ j ≤ n ∧ w.1 = iPlus c j := by
    intro w hw
    have := List.mem_map_of_mem (f := Prod.fst) hw
    rw [mem_writes] at this
    cases op <;> simp only [sets, List.mem_cons, List.not_mem_nil, or_false, reduceCtorEq] at this
    case LdK x => split at this <;> simp at this
    case LdBcd x =>
      obtain ⟨j, hj, he⟩ := List.mem_map.1 this
      exact ⟨2, j, rfl, rfl, by have := List.mem_range.1 hj; omega, (Part.mem.inj he).symm⟩
    case StoreRegistersToMemory x =>
      obtain ⟨j, hj, he⟩ := List.mem_map.1 this
      exact ⟨num x, j, rfl, rfl, by have := List.mem_range.1 hj; omega, (Part.mem.inj he).symm⟩
    case ReadRegistersFromMemory x =>
      obtain ⟨r, he, -⟩ := upTo_v this
      cases he
  have hlm := placedMem_write (ws := writes c op) hf (fun w hw => by
    obtain ⟨n, j, -, h1, h2, h3⟩ := hspan w hw
    rw [h3]
    exact (hp.data n j h1 h2).2) hl
  obtain ⟨bus', hb'⟩ := writeAll_accepted hI' hacc ((writes c op).map fun w => (f w.1, w.2)) hm' fun w hw => by
    obtain ⟨w0, h0, rfl⟩ := List.mem_map.1 hw
    obtain ⟨n, j, h1, -, h2, h3⟩ := hspan w0 h0
    show W (f w0.1)
    rw [h3]
    exact hW n j h1 h2
  have hst := step_ok (e := e) hat' hr' (fun _ => hv') (fun _ => hw')
  unfold StepWrites at hst
  rw [hwr, hb'] at hst
  have hst : StepsTo b e d { after e mem' d (readdress f op) with address_space := bus' } := hst
  have hcm : I c'.address_space ((writes c op).foldl (fun m w => upd m w.1 w.2) mem) := by
    rw [hc]
    exact writeAll_coherent hI _ hm hb
  refine ⟨_, _, _, hat', hst, hcm, writeAll_coherent hI' _ hm' hb', wellFormed_step hat hv hw hs,
    wellFormed_step hat' hv' hw' hst, hlm, ?_⟩
  rw [hc]
  exact ⟨hlk.pc, hlk.v, hlk.i, hlk.sp, hlk.cell, hlk.delay, hlk.sound, hlk.display, hlk.key⟩

/-- C127: any execution of the program, in the same worlds. -/
theorem C127_does (hf : ∀ a a', f a = f a' → a = a') (hI : Coherent b I) (hI' : Coherent b I')
    (hacc : Spec.Mos.AcceptsAt b I' W)
    (hm : I c.address_space mem) (hm' : I' d.address_space mem') (hw : WellFormed c)
    (hw' : WellFormed d) (h : Placed f c d) (hl : PlacedMem f P mem mem') (hx : DoesPlaced b f P c l c')
    (hW : ∀ i c1 op, Does b c (l.take i) c1 → At b c1 op → ∀ n j, memSpan op = some n → j ≤ n →
      W (f (iPlus c1 j))) :
    ∃ d' m m', Does b d (l.map fun x => (x.1, readdress f x.2)) d' ∧ I c'.address_space m ∧
      I' d'.address_space m' ∧ PlacedMem f P m m' ∧ Placed f c' d' := by
  induction hx generalizing d mem mem' with
  | nil c => exact ⟨d, mem, mem', .nil d, hm, hm', hl, h⟩
  | @cons c c1 c2 e op l hat hs hp _ ih =>
    obtain ⟨d1, m, m', q1, q2, q3, q4, q5, q6, q7, q8⟩ :=
      C127_step hf hI hI' hacc hm hm' hw hw' h hl hat hp (hW 0 c op (.nil c) hat) hs
    obtain ⟨d2, m2, m2', r1, r2⟩ := ih q3 q4 q5 q6 q8 q7 fun i c3 o hd =>
      hW (i + 1) c3 o (.cons hat hs hd)
    exact ⟨d2, m2, m2', .cons q1 q2 r1, r2⟩

/-- C127: `run` for any number of instructions and however the clock moves. -/
theorem C127_run {n : Nat} (hf : ∀ a a', f a = f a' → a = a') (hI : Coherent b I) (hI' : Coherent b I')
    (hacc : Spec.Mos.AcceptsAt b I' W)
    (hm : I c.address_space mem) (hm' : I' d.address_space mem') (hw : WellFormed c)
    (hw' : WellFormed d) (h : Placed f c d) (hl : PlacedMem f P mem mem')
    (hr : run b env c n = .ok (.ready c'))
    (hin : ∀ i c1 op, i < n → run b env c i = .ok (.ready c1) → At b c1 op →
      Placeable b f P c1 op ∧ ∀ n j, memSpan op = some n → j ≤ n → W (f (iPlus c1 j))) :
    ∃ d' m m', run b env d n = .ok (.ready d') ∧ I c'.address_space m ∧ I' d'.address_space m' ∧
      PlacedMem f P m m' ∧ Placed f c' d' := by
  have key := run_related (b := b) (env := env) (c := c) (d := d) (n := n) (c' := c')
    (Rel := fun _ c d => ∃ m m', I c.address_space m ∧ I' d.address_space m' ∧ WellFormed c ∧
      WellFormed d ∧ PlacedMem f P m m' ∧ Placed f c d)
    (fun _ _ _ ⟨_, _, _, _, _, _, _, h⟩ => h.delay) ?_ ⟨mem, mem', hm, hm', hw, hw', hl, h⟩ hr
  · obtain ⟨d', h1, m, m', h2, h3, -, -, h4, h5⟩ := key
    exact ⟨d', m, m', h1, h2, h3, h4, h5⟩
  · rintro i c1 it it' d1 e hi hc1 hsame ⟨m, m', g1, g2, g3, g4, g5, g6⟩ hs
    cases hfe : fetch b it with
    | error p =>
      exfalso
      unfold StepsTo at hs
      rw [run_one] at hs
      unfold next at hs
      rw [hfe] at hs
      cases hs
    | ok op =>
      have : Placeable b f P it op ∧ ∀ n j, memSpan op = some n → j ≤ n → W (f (iPlus it j)) := by
        obtain ⟨t, u, rfl⟩ := hsame
        obtain ⟨⟨a1, a2, a3, a4, a5⟩, a6⟩ := hin i _ op hi hc1 hfe
        exact ⟨⟨a1, a2, a3, a4, a5⟩, a6⟩
      obtain ⟨q1, q2⟩ := this
      obtain ⟨d', m1, m1', r1, r2, r3, r4, r5, r6, r7, r8⟩ :=
        C127_step hf hI hI' hacc g1 g2 g3 g4 g6 g5 hfe q1 q2 hs
      exact ⟨d', r2, m1, m1', r3, r4, r5, r6, r7, r8⟩
end

/-! ### A concrete case -/

/-- The pages 3 and 5 exchanged. -/
def pages (a : Word) : Word :=
  if a.toNat / 256 = 3 then BitVec.ofNat 16 (a.toNat + 512)
  else if a.toNat / 256 = 5 then BitVec.ofNat 16 (a.toNat - 512) else a

theorem pages_toNat (a : Word) : (pages a).toNat =
    if a.toNat / 256 = 3 then a.toNat + 512 else if a.toNat / 256 = 5 then a.toNat - 512 else a.toNat := by
  have := a.isLt
  unfold pages
  split
  · rw [BitVec.toNat_ofNat]; omega
  split
  · rw [BitVec.toNat_ofNat]; omega
  · rfl

theorem pages_inj (a a' : Word) (h : pages a = pages a') : a = a' := by
  have := congrArg BitVec.toNat h
  rw [pages_toNat, pages_toNat] at this
  apply BitVec.eq_of_toNat_eq
  split at this <;> split at this <;> (try split at this) <;> (try split at this) <;> omega

/-- `LD I, 0x310; ADD I, V0; LD [I], V1` with the data in page `3`, or wherever `hi` says. -/
def keeperMem (hi : Byte) (a : Word) : Byte :=
  if a = 0x200 then hi else if a = 0x201 then 0x10 else if a = 0x202 then 0xf0 else
  if a = 0x203 then 0x1e else if a = 0x204 then 0xf1 else if a = 0x205 then 0x55 else 0

def keeper : Chip8 FlatRam Unit := { sample with address_space := ⟨keeperMem 0xa3⟩ }

/-- Its instructions. -/
def keeperAt (a : Word) : Prop := a = 0x200 ∨ a = 0x202 ∨ a = 0x204

/-- The program with its data in page 5. -/
def keeperPlaced : Chip8 FlatRam Unit := { sample with i := 0x500, address_space := ⟨keeperMem 0xa5⟩ }

theorem keeper_placed : Placed pages keeper keeperPlaced :=
  ⟨rfl, fun _ => rfl, by decide +kernel, rfl, fun _ => rfl, rfl, rfl, rfl, rfl⟩

theorem keeperMem_zero {hi : Byte} {a : Word} (h : ¬(0x200 ≤ a.toNat ∧ a.toNat ≤ 0x205)) : keeperMem hi a = 0 := by
  have n : ∀ x : Word, 0x200 ≤ x.toNat ∧ x.toNat ≤ 0x205 → a ≠ x := fun x hx e => h (e ▸ hx)
  unfold keeperMem
  rw [if_neg (n _ (by decide)), if_neg (n _ (by decide)), if_neg (n _ (by decide)), if_neg (n _ (by decide)),
    if_neg (n _ (by decide)), if_neg (n _ (by decide))]

theorem keeper_code {a : Word} (h : ¬Code keeperAt a) : ¬(0x200 ≤ a.toNat ∧ a.toNat ≤ 0x205) := by
  rintro ⟨h1, h2⟩
  have e : a = BitVec.ofNat 16 a.toNat := by simp
  have : a.toNat = 0x200 ∨ a.toNat = 0x201 ∨ a.toNat = 0x202 ∨ a.toNat = 0x203 ∨ a.toNat = 0x204 ∨
    a.toNat = 0x205 := by omega
  rcases this with q | q | q | q | q | q <;> rw [q] at e <;> subst e
  · exact h (.inl (.inl rfl))
  · exact h (.inr (.inl rfl))
  · exact h (.inl (.inr (.inl rfl)))
  · exact h (.inr (.inr (.inl rfl)))
  · exact h (.inl (.inr (.inr rfl)))
  · exact h (.inr (.inr (.inr rfl)))

theorem keeper_placedMem : PlacedMem pages keeperAt keeper.address_space.mem keeperPlaced.address_space.mem := by
  refine ⟨fun p hp op hv hw => ?_, fun a ha => ?_⟩
  · rcases hp with rfl | rfl | rfl
    · have : op = .LdAbsolute ⟨0x310⟩ := C40_unambiguous _ _ hv (by show (0x310 : Word).toNat < 0x1000; decide)
        (hw.symm.trans (by decide +kernel))
      subst this
      exact ⟨by show (pages 0x310).toNat < 0x1000; decide +kernel, by decide +kernel⟩
    · have : op = .AddIRegisterIndexed .V0 := C40_unambiguous _ _ hv trivial (hw.symm.trans (by decide +kernel))
      subst this
      exact ⟨trivial, by decide +kernel⟩
    · have : op = .StoreRegistersToMemory .V1 := C40_unambiguous _ _ hv trivial
        (hw.symm.trans (by decide +kernel))
      subst this
      exact ⟨trivial, by decide +kernel⟩
  · have h1 := keeper_code ha
    have h2 : ¬(0x200 ≤ (pages a).toNat ∧ (pages a).toNat ≤ 0x205) := by
      rw [pages_toNat]
      split
      · omega
      split <;> omega
    exact (keeperMem_zero h2).trans (keeperMem_zero h1).symm

/-- `keeper` after one instruction. -/
def keeper1 : Chip8 FlatRam Unit := after1 .debug ⟨0, 0, 0, 0⟩ keeper

/-- `keeper` after two instructions. -/
def keeper2 : Chip8 FlatRam Unit := after1 .debug ⟨0, 0, 0, 0⟩ keeper1

theorem keeper_does : DoesPlaced .debug pages keeperAt keeper
    [(⟨0, 0, 0, 0⟩, .LdAbsolute ⟨0x310⟩), (⟨0, 0, 0, 0⟩, .AddIRegisterIndexed .V0),
      (⟨0, 0, 0, 0⟩, .StoreRegistersToMemory .V1)] (after1 .debug ⟨0, 0, 0, 0⟩ keeper2) := by
  have h0 : At .debug keeper (.LdAbsolute ⟨0x310⟩) := (C40_fetch (view _ _) (by decide +kernel) _).2
    ⟨by show (0x310 : Word).toNat < 0x1000; decide, by decide +kernel⟩
  have h1 : At .debug keeper1 (.AddIRegisterIndexed .V0) :=
    (C40_fetch (view _ _) (by decide +kernel) _).2 ⟨trivial, by decide +kernel⟩
  have h2 : At .debug keeper2 (.StoreRegistersToMemory .V1) :=
    (C40_fetch (view _ _) (by decide +kernel) _).2 ⟨trivial, by decide +kernel⟩
  have hi : keeper2.i = 0x321 := by decide +kernel
  have hc : ∀ a : Word, a.toNat > 0x210 → ¬Code keeperAt a := by
    rintro a h (h' | h')
    · rcases h' with rfl | rfl | rfl <;> revert h <;> decide
    · have : a = a - 1 + 1 := (BitVec.sub_add_cancel a 1).symm
      rcases h' with h' | h' | h' <;> rw [h'] at this <;> subst this <;> revert h <;> decide
  refine .cons (c' := keeper1) h0 (steps_after1 (by decide +kernel)) ⟨.inl rfl, nofun, nofun, nofun, nofun⟩
    (.cons (c' := keeper2) h1 (steps_after1 (by decide +kernel))
      ⟨.inr (.inl (by decide +kernel)), nofun, nofun, fun x hx => ?_, nofun⟩
      (.cons h2 (steps_after1 (by decide +kernel))
        ⟨.inr (.inr (by decide +kernel)), fun n j hn hj => ?_, fun _ n hn => ?_, nofun, nofun⟩ (.nil _)))
  · cases hx
    decide +kernel
  · cases hn
    have hj : j = 0 ∨ j = 1 := by
      have : num GpRegisters.V1 = 1 := rfl
      omega
    unfold iPlus
    rw [hi]
    rcases hj with rfl | rfl
    · exact ⟨by decide +kernel, hc _ (by decide +kernel), hc _ (by decide +kernel)⟩
    · exact ⟨by decide +kernel, hc _ (by decide +kernel), hc _ (by decide +kernel)⟩
  · cases hn
    rw [hi]
    decide +kernel

/-- The program stores V0 and V1 in page 5 instead of page 3. -/
example : ∃ l d' m', Does .debug keeperPlaced l d' ∧ l.length = 3 ∧ d'.i = 0x521 ∧
    m' = d'.address_space.mem ∧ m' 0x521 = 0x11 ∧ m' 0x522 = 0xfe := by
  obtain ⟨d', m, m', h1, h2, h3, h4, h5⟩ := C127_does (d := keeperPlaced) pages_inj (flatRam_coherent _)
    (flatRam_coherent _) (flat_accepts _) rfl rfl ⟨rfl, rfl⟩ ⟨rfl, rfl⟩ keeper_placed keeper_placedMem
    keeper_does fun _ _ _ _ _ _ _ _ _ => trivial
  have hd : ∀ a : Word, ¬Code keeperAt a → m' (pages a) = m a := h4.data
  have hn : ∀ a : Word, a = 0x321 ∨ a = 0x322 → ¬Code keeperAt a := by
    rintro a (rfl | rfl) (h | h) <;> rcases h with h | h | h <;> revert h <;> decide
  have e1 : pages 0x321 = 0x521 := by decide +kernel
  have e2 : pages 0x322 = 0x522 := by decide +kernel
  refine ⟨_, d', m', h1, rfl, h5.i.trans (by decide +kernel), h3.symm, ?_, ?_⟩
  · rw [← e1, hd _ (hn _ (.inl rfl)), ← h2]
    decide +kernel
  · rw [← e2, hd _ (hn _ (.inr rfl)), ← h2]
    decide +kernel

/-- A run of the first instruction, in any world. -/
example (env : Nat → Env) (c' : Chip8 FlatRam Unit) (hr : run .debug env keeper 1 = .ok (.ready c')) :
    ∃ d', run .debug env keeperPlaced 1 = .ok (.ready d') ∧ d'.i = pages c'.i ∧ d'.pc = c'.pc := by
  have h0 : At .debug keeper (.LdAbsolute ⟨0x310⟩) := (C40_fetch (view _ _) (by decide +kernel) _).2
    ⟨by show (0x310 : Word).toNat < 0x1000; decide, by decide +kernel⟩
  obtain ⟨d', m, m', h1, h2, h3, h4, h5⟩ := C127_run (b := .debug) (c := keeper) (d := keeperPlaced)
    (f := pages) (P := keeperAt) (n := 1) (env := env) pages_inj
    (flatRam_coherent _) (flatRam_coherent _) (flat_accepts _) rfl rfl ⟨rfl, rfl⟩ ⟨rfl, rfl⟩
    keeper_placed keeper_placedMem hr fun i c1 op hi q1 q2 => by
      obtain rfl : i = 0 := by omega
      cases run_ok_iff.1 q1
      cases (show fetch .debug keeper = .ok op from q2).symm.trans h0
      exact ⟨⟨.inl rfl, nofun, nofun, nofun, nofun⟩, nofun⟩
  exact ⟨d', h1, h5.i, h5.pc⟩

end Verif.Props.Chip8
