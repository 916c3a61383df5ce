import Verif.Proofs.LivePointer

/-!
# Instructions and `run` as trees of bus calls
-/

namespace Verif.Mos

open Verif Verif.Spec.Mos Verif.Spec.Live Verif.Live Verif.Live.Bus

variable {b : Build}

/-- A CPU with given registers and the name of a clone. -/
theorem named_regs (c : Mos6502 Copy) : withRegs (regs c) c.address_map = c := rfl

theorem asked_put {who : Copy} {a : Word} {v : Byte} {c c' : Mos6502 Copy} {l : List Call}
    (hw : c.address_map = who) :
    Asked (Live.writeMemory c a v) l (.ok c') ↔
      ∃ x, l = [.write who a v (.ok x)] ∧ c' = c := by
  subst hw
  simp only [Live.writeMemory, Bus.put, write_bind, asked_write, pure_eq, ok_bind]
  constructor
  · rintro ⟨r, l', rfl, h⟩
    cases r with
    | ok x =>
      simp only [unwrapResult, lift_eq, ok_bind, asked_done, Except.ok.injEq] at h
      obtain ⟨rfl, rfl⟩ := h
      exact ⟨x, rfl, rfl⟩
    | error e =>
      simp [unwrapResult, lift_eq, asked_done] at h
  · rintro ⟨x, rfl, rfl⟩
    refine ⟨_, _, rfl, ?_⟩
    simp [unwrapResult, asked_done]

/-- The calls of a list of microcode. -/
theorem asked_executeAll (mcs : List Microcode) (c c' : Mos6502 Copy) (l : List Call) :
    Asked (Live.executeAll mcs c) l (.ok c') ↔
      ∃ vs, vs.length = (stores mcs).length ∧ l = putCalls c.address_map (stores mcs) vs ∧
        c' = withRegs (mcs.foldl regAct (regs c)) c.address_map := by
  induction mcs generalizing c l with
  | nil =>
    simp only [Live.executeAll, pure_eq, asked_done, Except.ok.injEq, stores, List.length_nil,
      List.length_eq_zero_iff, List.foldl_nil]
    constructor
    · rintro ⟨rfl, rfl⟩; exact ⟨[], rfl, rfl, rfl⟩
    · rintro ⟨vs, rfl, rfl, rfl⟩; exact ⟨rfl, rfl⟩
  | cons mc mcs ih =>
    cases mc with
    | WriteMemory a v =>
      simp only [Live.executeAll, Live.executeMut, asked_bind, asked_put rfl, ih, stores, List.foldl_cons]
      constructor
      · rintro (⟨l₁, l₂, c₁, rfl, ⟨x, rfl, rfl⟩, vs, h1, rfl, rfl⟩ | ⟨e, h, _⟩)
        · exact ⟨x :: vs, by simp [h1], rfl, rfl⟩
        · cases h
      · rintro ⟨vs, h1, rfl, rfl⟩
        cases vs with
        | nil => simp at h1
        | cons x vs =>
          exact .inl ⟨[_], _, c, rfl, ⟨x, rfl, rfl⟩, vs, by simpa using h1, rfl, rfl⟩
    | SetProgramStatusFlagState f v =>
      simp only [Live.executeAll, Live.executeMut, pure_eq, ok_bind, ih, stores, List.foldl_cons]
      cases f <;> rfl
    | Write8bitRegister r v =>
      simp only [Live.executeAll, Live.executeMut, pure_eq, ok_bind, ih, stores, List.foldl_cons]
      cases r <;> rfl
    | Inc8bitRegister r v =>
      simp only [Live.executeAll, Live.executeMut, pure_eq, ok_bind, ih, stores, List.foldl_cons]
      cases r <;> rfl
    | Dec8bitRegister r v =>
      simp only [Live.executeAll, Live.executeMut, pure_eq, ok_bind, ih, stores, List.foldl_cons]
      cases r <;> rfl
    | Write16bitRegister r v =>
      cases r
      simp only [Live.executeAll, Live.executeMut, pure_eq, ok_bind, ih, stores, List.foldl_cons]
      rfl
    | Inc16bitRegister r v =>
      cases r
      simp only [Live.executeAll, Live.executeMut, pure_eq, ok_bind, ih, stores, List.foldl_cons]
      rfl
    | Dec16bitRegister r v =>
      cases r
      simp only [Live.executeAll, Live.executeMut, pure_eq, ok_bind, ih, stores, List.foldl_cons]
      rfl

theorem asked_get {who : Copy} {a : Word} {l : List Call} {v : Byte} :
    Asked (Bus.get who a) l (.ok v) ↔ l = [.read who a v] := by
  simp only [Bus.get, pure_eq, asked_read, asked_done]
  constructor
  · rintro ⟨v', l', rfl, rfl, h⟩; cases h; rfl
  · rintro rfl; exact ⟨v, [], rfl, rfl, rfl⟩

/-- The calls of the fetch. -/
theorem asked_fetch {c : Mos6502 Copy} {l : List Call} {i : InstructionVariant}
    (h : Asked (Live.fetch b c) l (.ok i)) :
    (addU16 b c.pc 1 = .ok (word (c.pc.toNat + 1)) ∧ addU16 b c.pc 2 = .ok (word (c.pc.toNat + 2))) ∧
    ∃ b0 b1 b2, Isa.parseInstruction b0 b1 b2 = some i ∧
      l = readCalls c.address_map [(c.pc, b0), (word (c.pc.toNat + 1), b1), (word (c.pc.toNat + 2), b2)] := by
  unfold Live.fetch at h
  obtain ⟨_, _, b0, rfl, h0, k1⟩ := asked_bind_ok.1 h
  obtain ⟨_, _, p1, rfl, hp1, k2⟩ := asked_bind_ok.1 k1
  obtain ⟨_, _, b1, rfl, h1, k3⟩ := asked_bind_ok.1 k2
  obtain ⟨_, _, p2, rfl, hp2, k4⟩ := asked_bind_ok.1 k3
  obtain ⟨_, _, b2, rfl, h2, k5⟩ := asked_bind_ok.1 k4
  obtain ⟨rfl, hq1⟩ := asked_lift.1 hp1
  obtain ⟨rfl, hq2⟩ := asked_lift.1 hp2
  rw [asked_get] at h0 h1 h2
  subst h0 h1 h2
  cases hp : Isa.parseInstruction b0 b1 b2 with
  | none => rw [hp] at k5; simp [asked_done] at k5
  | some j =>
    rw [hp] at k5
    simp only [pure_eq, asked_done, Except.ok.injEq] at k5
    obtain ⟨rfl, rfl⟩ := k5
    have e1 : p1 = word (c.pc.toNat + 1) := by rw [addU16_val hq1, word_add_one]
    have e2 : p2 = word (c.pc.toNat + 2) := by
      rw [addU16_val hq2]
      apply BitVec.eq_of_toNat_eq
      rw [BitVec.toNat_add, toNat_word]; rfl
    rw [e1] at hq1
    rw [e2] at hq2
    rw [e1, e2]
    exact ⟨⟨hq1, hq2⟩, b0, b1, b2, hp, rfl⟩

theorem intoSteps_inv {ops : Operations} {steps : List (List Microcode)}
    (h : ops.intoSteps b = .ok steps) :
    0 < ops.cycles ∧ steps = List.replicate (ops.cycles - 1) [] ++ [microcodeOf ops] := by
  unfold Operations.intoSteps at h
  simp only at h
  split at h
  · cases h
  · simp only [Except.ok.injEq] at h
    exact ⟨by omega, h.symm⟩

/-- The calls of one instruction. -/
theorem asked_next {c c' : Mos6502 Copy} {l : List Call} {ops : Operations}
    (h : Asked (Live.next b c) l (.ok (ops, c'))) :
    c'.address_map = c.address_map ∧ regs c' = (microcodeOf ops).foldl regAct (regs c) ∧
    ∃ reads vs, OneInstruction b (regs c) reads ops (regs c') ∧ vs.length = (storesOf ops).length ∧
      ops.intoSteps b = .ok (List.replicate (ops.cycles - 1) [] ++ [microcodeOf ops]) ∧
      l = readCalls c.address_map reads ++ putCalls c.address_map (storesOf ops) vs := by
  unfold Live.next at h
  obtain ⟨_, _, i, rfl, h0, k1⟩ := asked_bind_ok.1 h
  obtain ⟨_, _, mops, rfl, h1, k2⟩ := asked_bind_ok.1 k1
  obtain ⟨_, _, steps, rfl, h2, k3⟩ := asked_bind_ok.1 k2
  obtain ⟨_, _, c₁, rfl, h3, k4⟩ := asked_bind_ok.1 k3
  rw [pure_eq, asked_done] at k4
  obtain ⟨rfl, k4⟩ := k4
  simp only [Except.ok.injEq, Prod.mk.injEq] at k4
  obtain ⟨rfl, rfl⟩ := k4
  obtain ⟨rfl, h2s⟩ := asked_lift.1 h2
  obtain ⟨hc, rfl⟩ := intoSteps_inv h2s
  have hflat : (List.replicate (ops.cycles - 1) ([] : List Microcode) ++ [microcodeOf ops]).flatten =
      microcodeOf ops := by simp
  rw [hflat, asked_executeAll] at h3
  obtain ⟨vs, hvs, rfl, rfl⟩ := h3
  obtain ⟨-, b0, b1, b2, hp, rfl⟩ := asked_fetch h0
  obtain ⟨rs, rfl, hr1, hr2⟩ := asked_follows (follows_generate b c i) h1
  simp only [List.nil_append] at hr1 hr2
  refine ⟨rfl, rfl, _ :: _ :: _ :: rs, vs, ⟨i, ⟨b0, b1, b2, rs, hp, ⟨hr1, hr2⟩, rfl⟩, ?_, through_pointer h1, hc⟩, hvs, h2s, ?_⟩
  · intro B _ bus bus' hread hw
    constructor
    · rw [← interp_generate (withRegs (regs c) bus) c.address_map i]
      exact interp_asked (bus := bus) h1 hread
    · rw [exec_split]
      show (writeAll b bus (storesOf ops)).map _ = _
      rw [hw]
      rfl
  · simp [readCalls, storesOf, regs]

theorem asked_next_pc {c c' : Mos6502 Copy} {l : List Call} {ops : Operations}
    (h : Asked (Live.next b c) l (.ok (ops, c'))) :
    addU16 b c.pc 1 = .ok (word (c.pc.toNat + 1)) ∧ addU16 b c.pc 2 = .ok (word (c.pc.toNat + 2)) := by
  unfold Live.next at h
  obtain ⟨_, _, i, rfl, h0, -⟩ := asked_bind_ok.1 h
  exact (asked_fetch h0).1

/-- The empty cycles of an instruction, then its microcode. -/
theorem live_pending {it cpu : Mos6502 Copy} {mcs : List Microcode} (k n : Nat) :
    Live.runLoop b n it (List.replicate k [] ++ [mcs]) cpu =
      if n ≤ k then pure cpu else
        Live.executeAll mcs cpu >>= fun cpu' => Live.runLoop b (n - k - 1) it [] cpu' := by
  induction k generalizing n with
  | zero =>
    cases n with
    | zero => simp [Live.runLoop]
    | succ n => simp [Live.runLoop]
  | succ k ih =>
    cases n with
    | zero => simp [Live.runLoop]
    | succ n =>
      simp only [List.replicate_succ, List.cons_append, Live.runLoop, Live.executeAll, pure_eq, ok_bind]
      rw [ih]
      by_cases hk : n ≤ k
      · rw [if_pos hk, if_pos (by omega)]; rfl
      · rw [if_neg hk, if_neg (by omega)]
        have : n + 1 - (k + 1) - 1 = n - k - 1 := by omega
        rw [this]

/-- One instruction of `run`. -/
theorem live_step (n : Nat) (hn : 0 < n) (it cpu : Mos6502 Copy) :
    Live.runLoop b n it [] cpu = Live.next b it >>= fun q =>
      (liftM (q.1.intoSteps b) : Bus (List (List Microcode))) >>= fun _ =>
        if n < q.1.cycles then pure cpu else
          Live.executeAll (microcodeOf q.1) cpu >>= fun cpu' =>
            Live.runLoop b (n - q.1.cycles) q.2 [] cpu' := by
  cases n with
  | zero => omega
  | succ n =>
    simp only [Live.runLoop]
    congr 1
    funext q
    obtain ⟨ops, it'⟩ := q
    cases hs : ops.intoSteps b with
    | error e => rfl
    | ok steps =>
      obtain ⟨hc, rfl⟩ := intoSteps_inv hs
      obtain ⟨k, hk⟩ : ∃ k, ops.cycles = k + 1 := ⟨ops.cycles - 1, by omega⟩
      have := live_pending (b := b) (it := it') (cpu := cpu) (mcs := microcodeOf ops) k (n + 1)
      simp only [hk, Nat.add_sub_cancel, lift_eq, ok_bind]
      cases k with
      | zero =>
        simp only [List.replicate_zero, List.nil_append, Nat.zero_add]
        rw [if_neg (by omega)]
        rfl
      | succ k =>
        simp only [List.replicate_succ, List.cons_append]
        simp only [List.replicate_succ, List.cons_append, Live.runLoop] at this
        rw [this]
        by_cases h' : n + 1 ≤ k + 1
        · rw [if_pos h', if_pos (by omega)]
        · rw [if_neg h', if_neg (by omega)]
          have : n + 1 - (k + 1) - 1 = n + 1 - (k + 1 + 1) := by omega
          rw [this]

/-- The calls of `run`. -/
theorem asked_runLoop (n : Nat) : ∀ (r : Regs) (l : List Call) (c' : Mos6502 Copy),
    Asked (Live.runLoop b n (withRegs r .iterator) [] (withRegs r .own)) l (.ok c') →
    c'.address_map = .own ∧ Ran b n r l (regs c') := by
  induction n using Nat.strongRecOn with
  | ind n ih =>
    intro r l c' h
    by_cases hn : n = 0
    · subst hn
      simp only [Live.runLoop, pure_eq, asked_done, Except.ok.injEq] at h
      obtain ⟨rfl, rfl⟩ := h
      exact ⟨rfl, .stop r⟩
    · rw [live_step n (by omega)] at h
      obtain ⟨_, _, ⟨ops, it'⟩, rfl, h0, k1⟩ := asked_bind_ok.1 h
      obtain ⟨_, _, steps, rfl, h1, k2⟩ := asked_bind_ok.1 k1
      obtain ⟨rfl, -⟩ := asked_lift.1 h1
      obtain ⟨ha, hr, reads, vs, hone, hvs, -, rfl⟩ := asked_next h0
      have hit : it' = withRegs ((microcodeOf ops).foldl regAct r) .iterator := by
        rw [← named_regs it', hr, ha]; rfl
      simp only at k2
      by_cases hlt : n < ops.cycles
      · rw [if_pos hlt, pure_eq, asked_done] at k2
        obtain ⟨rfl, k2⟩ := k2
        simp only [Except.ok.injEq] at k2
        subst k2
        simp only [List.append_nil]
        exact ⟨rfl, .cut hone (by omega) hlt hvs⟩
      · rw [if_neg hlt] at k2
        obtain ⟨_, _, c₁, rfl, h2, k3⟩ := asked_bind_ok.1 k2
        rw [asked_executeAll] at h2
        obtain ⟨vs', hvs', rfl, rfl⟩ := h2
        rw [hit] at k3
        have hpos := hone.choose_spec.2.2
        obtain ⟨h3, h4⟩ := ih _ (by omega) _ _ _ k3
        refine ⟨h3, ?_⟩
        have hreg : regs it' = (microcodeOf ops).foldl regAct r := hr
        rw [hreg] at hone
        have := Ran.whole hone (by omega) hvs hvs' h4
        simp only [List.append_assoc, List.nil_append]
        exact this

/-! ## On value devices -/

/-- Only reads, all on one clone; proof device. -/
def ReadOnly {α : Type} (who : Copy) : Bus α → Prop
  | .done _ => True
  | .read who' _ k => who' = who ∧ ∀ v, ReadOnly who (k v)
  | .write _ _ _ _ => False

theorem readOnly_follows {α : Type} {who : Copy} {ask : List Byte → Option Word} {x : Bus α} :
    ∀ {vs : List Byte}, Follows who ask vs x → ReadOnly who x := by
  induction x with
  | done r => intros; trivial
  | read who' a k ih => intro vs h; exact ⟨h.1, fun v => ih v (h.2.2 v)⟩
  | write _ _ _ _ _ => intro vs h; exact h.elim

theorem readOnly_fetch (c : Mos6502 Copy) : ReadOnly c.address_map (Live.fetch b c) := by
  simp only [Live.fetch, Bus.get, read_bind, pure_eq, ok_bind, lift_eq]
  refine ⟨rfl, fun b0 => ?_⟩
  cases addU16 b c.pc 1 with
  | error e => trivial
  | ok p1 =>
    refine ⟨rfl, fun b1 => ?_⟩
    show ReadOnly _ ((done _ : Bus Word) >>= _)
    cases addU16 b c.pc 2 with
    | error e => trivial
    | ok p2 =>
      refine ⟨rfl, fun b2 => ?_⟩
      show ReadOnly _ (match Isa.parseInstruction b0 b1 b2 with | some i => _ | none => _)
      cases Isa.parseInstruction b0 b1 b2 <;> trivial

section
variable {W B : Type} [Addressable B]

theorem exec_readOnly {α : Type} {who : Copy} {x : Bus α} {bus : B} {s : Site W (Value B)}
    (hx : ReadOnly who x) (hs : s.on who = ⟨bus⟩) : exec b x s = (interp b bus x, s) := by
  induction x with
  | done r => rfl
  | read who' a k ih =>
    obtain ⟨rfl, h⟩ := hx
    have hr : Device.read b (s.on who') a s.world =
        ((Addressable.read b bus a).map fun v => (v, (⟨bus⟩ : Value B)), s.world) := by
      rw [hs]; rfl
    have hsame : s.update who' ⟨bus⟩ s.world = s := by rw [← hs]; cases who' <;> rfl
    simp only [exec, hr, interp]
    cases Addressable.read b bus a with
    | error e => rfl
    | ok v =>
      show exec b (k v) (s.update who' ⟨bus⟩ s.world) = _
      rw [hsame]
      exact ih v (h v)
  | write _ _ _ _ _ => exact hx.elim

theorem interp_fetch (c : Mos6502 B) (who : Copy) :
    interp b c.address_map (Live.fetch b (named who c)) = fetch b c := by
  simp only [Live.fetch, interp_bind, interp_get, interp_lift, fetch]
  congr 1; funext b0; congr 1; funext p1; congr 1; funext b1; congr 1; funext p2; congr 1; funext b2
  cases Isa.parseInstruction b0 b1 b2 <;> rfl

omit [Addressable B] in
theorem update_on (s : Site W (Value B)) (who : Copy) (d : Value B) (w : W) :
    (s.update who d w).on who = d := by cases who <;> rfl

omit [Addressable B] in
theorem update_update (s : Site W (Value B)) (who : Copy) (d d' : Value B) (w w' : W) :
    (s.update who d w).update who d' w' = s.update who d' w' := by cases who <;> rfl

omit [Addressable B] in
theorem update_world (s : Site W (Value B)) (who : Copy) (d : Value B) (w : W) :
    (s.update who d w).world = w := by cases who <;> rfl

theorem exec_microcode (mcs : List Microcode) (c : Mos6502 Copy) (bus : B) (s : Site W (Value B))
    (hs : s.on c.address_map = ⟨bus⟩) :
    (∀ bus', writeAll b bus (stores mcs) = .ok bus' →
      exec b (Live.executeAll mcs c) s = (.ok (withRegs (mcs.foldl regAct (regs c)) c.address_map),
        s.update c.address_map ⟨bus'⟩ s.world)) ∧
    (∀ e, writeAll b bus (stores mcs) = .error e → (exec b (Live.executeAll mcs c) s).1 = .error e) := by
  induction mcs generalizing c bus s with
  | nil =>
    refine ⟨fun bus' h => ?_, fun e h => by cases h⟩
    cases h
    have : s.update c.address_map ⟨bus⟩ s.world = s := by
      rw [← hs]; cases c.address_map <;> rfl
    rw [this]
    rfl
  | cons mc mcs ih =>
    cases mc with
    | WriteMemory a v =>
      simp only [Live.executeAll, Live.executeMut, Live.writeMemory, Bus.put, write_bind, pure_eq, ok_bind,
        stores, writeAll, exec]
      have hw : Device.write b (s.on c.address_map) a v s.world =
          ((Addressable.write b bus a v).map fun p => (p.1, (⟨p.2⟩ : Value B)), s.world) := by
        rw [hs]; rfl
      rw [hw]
      rcases Addressable.write b bus a v with p | ⟨e | x, bus₁⟩
      · exact ⟨fun _ h => (by simp at h), fun e h => by cases h; rfl⟩
      · refine ⟨fun _ h => (by simp at h), fun e' h => ?_⟩
        simp only [Except.error.injEq] at h
        subst h
        rfl
      · have := ih c bus₁ (s.update c.address_map ⟨bus₁⟩ s.world) (update_on _ _ _ _)
        simp only [update_update, update_world] at this
        exact this
    | SetProgramStatusFlagState f v =>
      have := ih (setFlag c f v) bus s (by cases f <;> exact hs)
      cases f <;> exact this
    | Write8bitRegister r v =>
      have := ih (write8 c r v) bus s (by cases r <;> exact hs)
      cases r <;> exact this
    | Inc8bitRegister r v =>
      have := ih (inc8 c r v) bus s (by cases r <;> exact hs)
      cases r <;> exact this
    | Dec8bitRegister r v =>
      have := ih (dec8 c r v) bus s (by cases r <;> exact hs)
      cases r <;> exact this
    | Write16bitRegister r v =>
      cases r
      exact ih { c with pc := v } bus s hs
    | Inc16bitRegister r v =>
      cases r
      exact ih { c with pc := c.pc + v } bus s hs
    | Dec16bitRegister r v =>
      cases r
      exact ih { c with pc := c.pc - v } bus s hs

/-- One instruction on value devices. -/
theorem exec_next (c : Mos6502 B) (who : Copy) (s : Site W (Value B)) (hs : s.on who = ⟨c.address_map⟩) :
    (∀ ops c', next b c = .ok (ops, c') → exec b (Live.next b (named who c)) s =
      (.ok (ops, named who c'), s.update who ⟨c'.address_map⟩ s.world)) ∧
    (∀ e, next b c = .error e → (exec b (Live.next b (named who c)) s).1 = .error e) := by
  unfold next Live.next
  rw [exec_bind, exec_readOnly (readOnly_fetch _) hs, interp_fetch]
  cases fetch b c with
  | error e => exact ⟨fun _ _ h => (by cases h), fun e' h => by cases h; rfl⟩
  | ok i =>
    simp only [Res.ok_bind]
    rw [exec_bind, exec_readOnly (readOnly_follows (follows_generate b (named who c) i)) hs, interp_generate]
    cases i.generate b c with
    | error e => exact ⟨fun _ _ h => (by cases h), fun e' h => by cases h; rfl⟩
    | ok mops =>
      simp only [Res.ok_bind, lift_eq]
      cases mops.intoSteps b with
      | error e => exact ⟨fun _ _ h => (by cases h), fun e' h => by cases h; rfl⟩
      | ok steps =>
        simp only [Res.ok_bind, ok_bind]
        rw [exec_bind, exec_split]
        obtain ⟨h1, h2⟩ := exec_microcode (b := b) steps.flatten (named who c) c.address_map s hs
        cases hw : writeAll b c.address_map (stores steps.flatten) with
        | error e =>
          refine ⟨fun _ _ h => (by cases h), fun e' h => ?_⟩
          cases h
          have := h2 e hw
          rcases hx : exec b (Live.executeAll steps.flatten (named who c)) s with ⟨r, s'⟩
          rw [hx] at this
          simp only at this
          subst this
          rfl
        | ok bus' =>
          rw [h1 bus' hw]
          refine ⟨fun ops c' h => ?_, fun e h => by cases h⟩
          cases h
          rfl

/-- `run` on value devices. -/
theorem exec_runLoop (n : Nat) : ∀ (c : Mos6502 B) (s : Site W (Value B)),
    s.iterator = ⟨c.address_map⟩ → s.own = ⟨c.address_map⟩ →
    (∀ c', runLoop b n c [] c = .ok c' → ∃ s',
      exec b (Live.runLoop b n (named .iterator c) [] (named .own c)) s = (.ok (named .own c'), s') ∧
      s'.own = ⟨c'.address_map⟩ ∧ s'.world = s.world) ∧
    (∀ e, runLoop b n c [] c = .error e →
      (exec b (Live.runLoop b n (named .iterator c) [] (named .own c)) s).1 = .error e) := by
  induction n using Nat.strongRecOn with
  | ind n ih =>
    intro c s hi ho
    by_cases hn : n = 0
    · subst hn
      refine ⟨fun c' h => ?_, fun e h => by cases h⟩
      cases h
      exact ⟨s, rfl, ho, rfl⟩
    · rw [live_step n (by omega), runLoop_step n (by omega), exec_bind]
      obtain ⟨h1, h2⟩ := exec_next (b := b) c .iterator s hi
      cases hx : next b c with
      | error e =>
        refine ⟨fun _ h => (by cases h), fun e' h => ?_⟩
        cases h
        have := h2 e hx
        rcases hy : exec b (Live.next b (named .iterator c)) s with ⟨r, s'⟩
        rw [hy] at this
        simp only at this
        subst this
        rfl
      | ok q =>
        obtain ⟨ops, c'⟩ := q
        obtain ⟨hc, hs, he⟩ := next_microcode hx
        rw [h1 ops c' hx]
        simp only [hs, lift_eq, ok_bind]
        by_cases hlt : n < ops.cycles
        · rw [if_pos hlt, if_pos hlt]
          refine ⟨fun c'' h => ?_, fun e h => by cases h⟩
          cases h
          exact ⟨_, rfl, ho, rfl⟩
        · rw [if_neg hlt, if_neg hlt, exec_bind]
          obtain ⟨hw, hr⟩ := exec_split_ok he
          obtain ⟨h3, -⟩ := exec_microcode (b := b) (microcodeOf ops) (named .own c) c.address_map
            (s.update .iterator ⟨c'.address_map⟩ s.world) ho
          rw [h3 _ hw]
          have : withRegs ((microcodeOf ops).foldl regAct (regs (named .own c))) (named .own c).address_map =
              named .own c' := by
            show withRegs ((microcodeOf ops).foldl regAct (regs c)) _ = _
            rw [← hr]; rfl
          simp only [this]
          exact ih (n - ops.cycles) (by omega) c' _ rfl rfl

end

end Verif.Mos
