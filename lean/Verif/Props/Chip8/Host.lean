import Verif.Spec.Chip8Host
import Verif.Props.Chip8.Panic
import Verif.Props.Builders

/-!
# C142: through its public interface a CHIP-8 cannot be given a program
-/

namespace Verif.Props.Chip8

open Verif Verif.Chip8 Verif.Spec Verif.Spec.Chip8
open Verif.Spec.Mos (BusView)

section
variable {B R : Type} [Addressable B] {b : Build} {c : Chip8 B R}

/-- What an iterator emits where memory is all zeros. -/
theorem zero_next (e : Env) (hv : BusView b c.address_space (fun _ => 0)) : next b e c =
    if b.overflowChecks = true ∧ c.pc.toNat = 65535 then .error .overflow else
      .ok ([.Inc16bitRegister .ProgramCounter 2], { c with pc := c.pc + 2 }) := by
  unfold next fetch
  have h1 : (1 : Word).toNat = 1 := rfl
  by_cases h : b.overflowChecks = true ∧ c.pc.toNat = 65535
  · rw [if_pos h]
    simp only [hv c.pc, Res.ok_bind, addU16]
    rw [if_pos ⟨h.1, by omega⟩]
    rfl
  · rw [if_neg h]
    have hlt := c.pc.isLt
    have hn : ¬(b.overflowChecks = true ∧ 65536 ≤ c.pc.toNat + (1 : Word).toNat) := fun hh => h ⟨hh.1, by omega⟩
    simp only [hv c.pc, Res.ok_bind, addU16, if_neg hn, hv (c.pc + 1)]
    rfl

/-- Where memory is all zeros, a run moves `pc` and does nothing else, or fails at the one address whose
successor is none. -/
theorem zero_run (hv : BusView b c.address_space (fun _ => 0)) (env : Nat → Env) (n : Nat) : run b env c n =
    if b.overflowChecks = true ∧ c.pc.toNat % 2 = 1 ∧ 65536 ≤ c.pc.toNat + 2 * n then .error .overflow else
      .ok (.ready { c with pc := c.pc + BitVec.ofNat 16 (2 * n) }) := by
  have key : ∀ n k, ∀ c : Chip8 B R, BusView b c.address_space (fun _ => 0) → runLoop b env n k c c =
      if b.overflowChecks = true ∧ c.pc.toNat % 2 = 1 ∧ 65536 ≤ c.pc.toNat + 2 * n then .error .overflow else
        .ok { c with pc := c.pc + BitVec.ofNat 16 (2 * n) } := by
    intro n
    induction n with
    | zero =>
      intro k c _
      have := c.pc.isLt
      rw [if_neg (by omega)]
      simp [runLoop]
    | succ n ih =>
      intro k c hv
      have hlt := c.pc.isLt
      have h2 : (2 : Word).toNat = 2 := rfl
      simp only [runLoop, zero_next (env k) hv]
      by_cases h : b.overflowChecks = true ∧ c.pc.toNat = 65535
      · rw [if_pos h, if_pos ⟨h.1, by omega, by omega⟩]
        rfl
      · rw [if_neg h]
        have e : executeAll b (env k).foldAt c [.Inc16bitRegister .ProgramCounter 2] =
          .ok { c with pc := c.pc + 2 } := rfl
        simp only [Res.ok_bind, e]
        rw [ih (k + 1) { c with pc := c.pc + 2 } hv]
        have e2 : c.pc + 2 + BitVec.ofNat 16 (2 * n) = c.pc + BitVec.ofNat 16 (2 * (n + 1)) := by
          apply BitVec.eq_of_toNat_eq
          simp only [BitVec.toNat_add, BitVec.toNat_ofNat, h2]
          omega
        simp only [e2, BitVec.toNat_add, h2]
        by_cases hb : b.overflowChecks = true
        · have hp : c.pc.toNat ≠ 65535 := fun hh => h ⟨hb, hh⟩
          by_cases ho : c.pc.toNat % 2 = 1
          · by_cases hg : 65536 ≤ c.pc.toNat + 2 * (n + 1)
            · rw [if_pos ⟨hb, by omega, by omega⟩, if_pos ⟨hb, ho, hg⟩]
            · rw [if_neg (by omega), if_neg (by omega)]
          · rw [if_neg (by omega), if_neg (by omega)]
        · rw [if_neg (fun hh => hb hh.1), if_neg (fun hh => hb hh.1)]
  unfold run
  rw [key n 0 c hv]
  split <;> rfl

end

/-- A builder call keeps the bus. -/
theorem build_bus {B R : Type} {c c' : Chip8 B R} {k : Chip8Call R} (h : k.exec c = .ok c') :
    c'.address_space = c.address_space := by
  cases k with
  | gp r v =>
    unfold Chip8Call.exec withGpRegister at h
    cases h1 : setGp c.gp_registers r v with
    | error p => simp only [h1] at h; cases h
    | ok g => simp only [h1, Res.ok_bind] at h; cases h; rfl
  | timer t v => cases t <;> (cases h; rfl)
  | _ => cases h; rfl

/-- The bus of every CHIP-8 that a host can get is the default one, untouched. -/
theorem obtained_bus {b : Build} {R : Type} {c : Chip8 (AddressMap Memory) R} (h : Obtained b c) :
    defaultMap.inner.Perm c.address_space.inner := by
  induction h with
  | @new R now rng c h =>
    rw [defaultCpu_eq] at h
    cases h
    exact .refl _
  | clone _ hp ih => exact ih.trans hp
  | build _ hb ih => rwa [build_bus hb]
  | generator _ ih => exact ih
  | @run R c env n s _ hr ih =>
    rw [zero_run (defaultBus_coherent b _ _ (defaultBus_default b ih)).1] at hr
    split at hr
    · cases hr
    · cases hr; exact ih
  | iterate _ hn ih =>
    rw [zero_next _ (defaultBus_coherent b _ _ (defaultBus_default b ih)).1] at hn
    split at hn
    · cases hn
    · cases hn; exact ih
  | execute _ _ hn hm hx ihc ihd =>
    rw [zero_next _ (defaultBus_coherent b _ _ (defaultBus_default b ihd)).1] at hn
    split at hn
    · cases hn
    · cases hn
      cases List.mem_singleton.1 hm
      cases hx
      exact ihc

section
variable {b : Build} {R : Type} {c : Chip8 (AddressMap Memory) R}

theorem obtained_view (h : Obtained b c) : BusView b c.address_space (fun _ => 0) :=
  (defaultBus_coherent b _ _ (defaultBus_default b (obtained_bus h))).1

/-- C142: whatever a host does, all memory of the CHIP-8 reads 0. -/
theorem C142_blank (h : Obtained b c) (a : Word) : c.address_space.read b a = .ok 0 := obtained_view h a

/-- C142: so the only thing the iterator of such a machine ever emits is the move of `pc` by 2. -/
theorem C142_emits (h : Obtained b c) {e : Env} {mcs : List Microcode} {c' : Chip8 (AddressMap Memory) R}
    (hn : next b e c = .ok (mcs, c')) :
    mcs = [.Inc16bitRegister .ProgramCounter 2] ∧ c' = { c with pc := c.pc + 2 } := by
  rw [zero_next e (obtained_view h)] at hn
  split at hn
  · cases hn
  · cases hn; exact ⟨rfl, rfl⟩

/-- C142: and a run of `n` instructions moves `pc` by `2 * n` and changes nothing else; it panics only in the
checked build, from an odd `pc`, if it gets to 0xffff. -/
theorem C142_run (h : Obtained b c) (env : Nat → Env) (n : Nat) : run b env c n =
    if b.overflowChecks = true ∧ c.pc.toNat % 2 = 1 ∧ 65536 ≤ c.pc.toNat + 2 * n then .error .overflow else
      .ok (.ready { c with pc := c.pc + BitVec.ofNat 16 (2 * n) }) := zero_run (obtained_view h) env n

theorem build_keeps {k : Chip8Call R} {p : Word} {d : Chip8 (AddressMap Memory) R} (h : k.exec c = .ok d) :
    ∃ d', k.exec { c with pc := p } = .ok d' ∧ { d with pc := d'.pc } = d' := by
  cases k with
  | gp r v =>
    unfold Chip8Call.exec withGpRegister at h ⊢
    cases h1 : setGp c.gp_registers r v with
    | error p => simp only [h1] at h; cases h
    | ok g =>
      simp only [h1, Res.ok_bind] at h ⊢
      cases h
      exact ⟨_, rfl, rfl⟩
  | timer t v => cases t <;> (cases h; exact ⟨_, rfl, rfl⟩)
  | _ => cases h; exact ⟨_, rfl, rfl⟩

/-- C142: all that a host finds in a CHIP-8 after whatever it did is what it put there itself with the builder
methods: leaving out the runs makes no difference but to `pc`, which is as far on as instructions were run. -/
theorem C142_host (h : Obtained b c) {l : List (HostOp R)} {c' : Chip8 (AddressMap Memory) R}
    (hx : execHost b c l = .ok c') : Obtained b c' ∧ ∃ d, execCalls c (buildersOf l) = .ok d ∧
      c' = { d with pc := c'.pc } ∧ c'.pc.toNat = counterAfter c.pc.toNat l := by
  suffices H : ∀ (l : List (HostOp R)) (c : Chip8 (AddressMap Memory) R) (p : Word), Obtained b c →
      execHost b c l = .ok c' → Obtained b c' ∧ ∃ d, execCalls { c with pc := p } (buildersOf l) = .ok d ∧
      c' = { d with pc := c'.pc } ∧ ∀ q, q % 65536 = c.pc.toNat → c'.pc.toNat = counterAfter q l by
    obtain ⟨g1, d, g2, g3, g4⟩ := H l c c.pc h hx
    exact ⟨g1, d, g2, g3, g4 _ (Nat.mod_eq_of_lt c.pc.isLt)⟩
  intro l
  induction l with
  | nil =>
    intro c p hc hx
    cases hx
    exact ⟨hc, _, rfl, rfl, fun q hq => hq.symm⟩
  | cons o l ih =>
    intro c p hc hx
    cases o with
    | call k =>
      simp only [execHost] at hx
      cases hk : k.exec c with
      | error e => rw [hk] at hx; cases hx
      | ok c1 =>
        rw [hk, Res.ok_bind] at hx
        obtain ⟨d1, q1, q2⟩ := build_keeps (p := p) hk
        obtain ⟨g1, d, g2, g3, g4⟩ := ih c1 d1.pc (.build hc hk) hx
        refine ⟨g1, d, ?_, g3, fun q hq => ?_⟩
        · show (k.exec { c with pc := p } >>= fun cpu => execCalls cpu (buildersOf l)) = _
          rw [q1, Res.ok_bind, ← q2]
          exact g2
        · cases k with
          | pc v =>
            cases hk
            exact g4 _ (Nat.mod_eq_of_lt v.isLt)
          | gp r v =>
            refine g4 _ (hq.trans ?_)
            unfold Chip8Call.exec withGpRegister at hk
            cases h1 : setGp c.gp_registers r v with
            | error p => simp only [h1] at hk; cases hk
            | ok g => simp only [h1, Res.ok_bind] at hk; cases hk; rfl
          | timer t v => cases t <;> (cases hk; exact g4 _ hq)
          | _ => cases hk; exact g4 _ hq
    | run env n =>
      simp only [execHost] at hx
      have hr := C142_run hc env n
      split at hr
      · rw [hr] at hx; cases hx
      · rw [hr, Res.ok_bind] at hx
        obtain ⟨g1, d, g2, g3, g4⟩ := ih _ p (.run hc hr) hx
        refine ⟨g1, d, g2, g3, fun q hq => g4 _ ?_⟩
        show (q + 2 * n) % 65536 = (c.pc + BitVec.ofNat 16 (2 * n)).toNat
        rw [BitVec.toNat_add, BitVec.toNat_ofNat, ← hq]
        omega

end

/-! ### Concrete cases -/

/-- The hypotheses of `C142_host`: V3 := 7, a run of 100 instructions, a key, pc := 0x301, 50 instructions. -/
example (env : Nat → Env) : ∃ c c' : Chip8 (AddressMap Memory) Unit, Obtained .debug c ∧ execHost .debug c
      [.call (.gp .V3 7), .run env 100, .call (.interrupt (some (.KeyPress .Key5))), .call (.pc 0x301), .run env 50]
        = .ok c' ∧ c'.pc = 0x365 ∧ readGpRegister c' .V3 = .ok 7 := by
  have h0 : Obtained .debug (defaultState 0 ()) := .new (defaultCpu_eq .debug 0 ())
  have h1 : ∃ c1, (Chip8Call.gp .V3 7).exec (defaultState 0 ()) = .ok c1 ∧ c1.pc = 0x200 ∧
      readGpRegister c1 .V3 = .ok 7 := ⟨_, rfl, rfl, rfl⟩
  obtain ⟨c1, g1, g2, g3⟩ := h1
  have h1 : Obtained .debug c1 := .build h0 g1
  have r1 := C142_run h1 env 100
  rw [if_neg (by rw [g2]; decide)] at r1
  generalize hc2 : ({ c1 with pc := c1.pc + BitVec.ofNat 16 (2 * 100) } : Chip8 (AddressMap Memory) Unit) = c2 at r1
  have h2 : Obtained .debug c2 := .run h1 r1
  have k2 : (Chip8Call.interrupt (some (.KeyPress .Key5))).exec c2 = .ok (withInterrupt c2 (some (.KeyPress .Key5))) :=
    rfl
  have k3 : (Chip8Call.pc 0x301).exec (withInterrupt c2 (some (.KeyPress .Key5))) =
    .ok (withPcRegister (withInterrupt c2 (some (.KeyPress .Key5))) 0x301) := rfl
  have r4 := C142_run (.build (.build h2 k2) k3) env 50
  rw [if_neg (by show ¬(_ ∧ _ ∧ 65536 ≤ 0x301 + 2 * 50); omega)] at r4
  refine ⟨_, _, h0, by
    simp only [execHost, g1, Res.ok_bind, r1, StepState.unwrap, k2, k3, r4]; rfl, rfl, ?_⟩
  subst hc2
  exact g3

/-- C142: the panic is real: in the checked build the machine with `pc` set to 0xffff does not run. -/
theorem C142_odd (env : Nat → Env) : ∃ c : Chip8 (AddressMap Memory) Unit, Obtained .debug c ∧
    run .debug env c 1 = .error .overflow := by
  have h : Obtained .debug (withPcRegister (defaultState 0 ()) 0xffff) :=
    .build (.new (defaultCpu_eq .debug 0 ())) (rfl : (Chip8Call.pc 0xffff).exec _ = _)
  refine ⟨_, h, ?_⟩
  rw [C142_run h, if_pos ⟨rfl, rfl, by decide⟩]

end Verif.Props.Chip8
