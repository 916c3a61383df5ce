import Verif.Proofs.LiveRun
import Verif.Spec.LivePanic

/-!
# Instructions and runs that panic, as trees of bus calls
-/

namespace Verif.Mos

open Verif Verif.Spec.Mos Verif.Spec.Live Verif.Live Verif.Live.Bus

variable {b : Build}

/-- The reads of a computation that follows `ask`, however it ends. -/
theorem asked_begins {α : Type} {who : Copy} {ask : List Byte → Option Word} {x : Bus α} {vs : List Byte}
    {l : List Call} {r : Res α} (hf : Follows who ask vs x) (h : Asked x l r) :
    ∃ rs, l = readCalls who rs ∧
      (∀ k (hk : k < rs.length), ask (vs ++ (rs.take k).map Prod.snd) = some rs[k].1) := by
  induction h generalizing vs with
  | done r => exact ⟨[], rfl, fun k hk => by simp at hk⟩
  | @read who' ad k v l r _ ih =>
    obtain ⟨rfl, h1, h2⟩ := hf
    obtain ⟨rs, rfl, h3⟩ := ih (h2 v)
    refine ⟨(ad, v) :: rs, rfl, ?_⟩
    intro j hj
    cases j with
    | zero => simpa using h1
    | succ j => simpa using h3 j (by simpa using hj)
  | write _ _ => exact absurd hf (by simp [Follows])

theorem asked_put_error {a : Word} {v : Byte} {c : Mos6502 Copy} {l : List Call} {p : Panic} :
    Asked (Live.writeMemory c a v) l (.error p) ↔
      ∃ e, l = [.write c.address_map a v (.error e)] ∧ p = .unwrapErr e := by
  simp only [Live.writeMemory, Bus.put, write_bind, asked_write, pure_eq, ok_bind]
  constructor
  · rintro ⟨r, l', rfl, h⟩
    cases r with
    | ok x => simp [unwrapResult, lift_eq, asked_done] at h
    | error e =>
      simp only [unwrapResult, lift_eq, error_bind, asked_done, Except.error.injEq] at h
      obtain ⟨rfl, rfl⟩ := h
      exact ⟨e, rfl, rfl⟩
  · rintro ⟨e, rfl, rfl⟩
    refine ⟨_, _, rfl, ?_⟩
    simp [unwrapResult, asked_done]

/-- The calls of a list of microcode that panics. -/
theorem asked_executeAll_error (mcs : List Microcode) (c : Mos6502 Copy) (l : List Call) (p : Panic)
    (h : Asked (Live.executeAll mcs c) l (.error p)) : Refused c.address_map (stores mcs) l p := by
  induction mcs generalizing c l with
  | nil => simp [Live.executeAll, asked_done] at h
  | cons mc mcs ih =>
    cases mc with
    | WriteMemory a v =>
      simp only [Live.executeAll, Live.executeMut, asked_bind, asked_put rfl] at h
      rcases h with ⟨l₁, l₂, c₁, rfl, ⟨x, rfl, rfl⟩, h⟩ | ⟨e, h, h'⟩
      · obtain ⟨before, a', v', rest, answers, e, h1, h2, rfl, rfl⟩ := ih _ _ h
        exact ⟨(a, v) :: before, a', v', rest, x :: answers, e, by simp [stores, h1], by simp [h2], rfl, rfl⟩
      · cases h
        obtain ⟨e, rfl, rfl⟩ := asked_put_error.1 h'
        exact ⟨[], a, v, stores mcs, [], e, rfl, rfl, rfl, rfl⟩
    | SetProgramStatusFlagState f v =>
      simp only [Live.executeAll, Live.executeMut, pure_eq, ok_bind] at h
      have := ih _ _ h
      cases f <;> exact this
    | Write8bitRegister r v =>
      simp only [Live.executeAll, Live.executeMut, pure_eq, ok_bind] at h
      have := ih _ _ h
      cases r <;> exact this
    | Inc8bitRegister r v =>
      simp only [Live.executeAll, Live.executeMut, pure_eq, ok_bind] at h
      have := ih _ _ h
      cases r <;> exact this
    | Dec8bitRegister r v =>
      simp only [Live.executeAll, Live.executeMut, pure_eq, ok_bind] at h
      have := ih _ _ h
      cases r <;> exact this
    | Write16bitRegister r v =>
      cases r
      simp only [Live.executeAll, Live.executeMut, pure_eq, ok_bind] at h
      have := ih _ _ h
      exact this
    | Inc16bitRegister r v =>
      cases r
      simp only [Live.executeAll, Live.executeMut, pure_eq, ok_bind] at h
      have := ih _ _ h
      exact this
    | Dec16bitRegister r v =>
      cases r
      simp only [Live.executeAll, Live.executeMut, pure_eq, ok_bind] at h
      have := ih _ _ h
      exact this

theorem asked_get_error {who : Copy} {a : Word} {l : List Call} {p : Panic} :
    ¬ Asked (Bus.get who a) l (.error p) := by
  simp only [Bus.get, pure_eq, asked_read, asked_done]
  rintro ⟨v', l', rfl, rfl, h⟩; cases h

theorem asked_lift_error {α : Type} {r : Except Panic α} {l : List Call} {p : Panic} :
    Asked (liftM r : Bus α) l (.error p) ↔ l = [] ∧ r = .error p := by
  rw [lift_eq, asked_done]
  constructor <;> (rintro ⟨h, h'⟩; exact ⟨h, h'.symm⟩)

theorem pc_two {w x : Word} (h : addU16 b w 2 = .ok x) : x = word (w.toNat + 2) := by
  rw [addU16_val h]
  apply BitVec.eq_of_toNat_eq
  rw [BitVec.toNat_add, toNat_word]; rfl

theorem pc_one {w x : Word} (h : addU16 b w 1 = .ok x) : x = word (w.toNat + 1) := by
  rw [addU16_val h, word_add_one]

/-- The calls of a fetch that panics. -/
theorem asked_fetch_error {c : Mos6502 Copy} {l : List Call} {p : Panic}
    (h : Asked (Live.fetch b c) l (.error p)) :
    ∃ reads : List (Word × Byte), l = readCalls c.address_map reads ∧ reads ≠ [] ∧
      reads.map Prod.fst <+: [c.pc, word (c.pc.toNat + 1), word (c.pc.toNat + 2)] := by
  unfold Live.fetch at h
  rcases asked_bind.1 h with ⟨_, _, b0, rfl, h0, k1⟩ | ⟨_, -, h0⟩
  rotate_left
  · exact absurd h0 asked_get_error
  rw [asked_get] at h0
  subst h0
  rcases asked_bind.1 k1 with ⟨_, _, p1, rfl, hp1, k2⟩ | ⟨_, -, h1⟩
  rotate_left
  · obtain ⟨rfl, -⟩ := asked_lift_error.1 h1
    exact ⟨[(c.pc, b0)], rfl, by simp, ⟨_, rfl⟩⟩
  obtain ⟨rfl, hq1⟩ := asked_lift.1 hp1
  rcases asked_bind.1 k2 with ⟨_, _, b1, rfl, h1, k3⟩ | ⟨_, -, h1⟩
  rotate_left
  · exact absurd h1 asked_get_error
  rw [asked_get] at h1
  subst h1
  rw [pc_one hq1]
  rcases asked_bind.1 k3 with ⟨_, _, p2, rfl, hp2, k4⟩ | ⟨_, -, h2⟩
  rotate_left
  · obtain ⟨rfl, -⟩ := asked_lift_error.1 h2
    exact ⟨[(c.pc, b0), (word (c.pc.toNat + 1), b1)], rfl, by simp, ⟨_, rfl⟩⟩
  obtain ⟨rfl, hq2⟩ := asked_lift.1 hp2
  rcases asked_bind.1 k4 with ⟨_, _, b2, rfl, h2, k5⟩ | ⟨_, -, h2⟩
  rotate_left
  · exact absurd h2 asked_get_error
  rw [asked_get] at h2
  subst h2
  rw [pc_two hq2]
  have hl : ∀ {α : Type} {r : Res α} {l : List Call} {q : Res α}, Asked (.done r : Bus α) l q → l = [] :=
    fun h => (asked_done.1 h).1
  have : ∀ l, Asked (match Isa.parseInstruction b0 b1 b2 with
      | some i => (pure i : Bus InstructionVariant)
      | none => .done (.error (.unwrapErr s!"No match found for {b0.toNat}"))) l (.error p) → l = [] := by
    intro l h
    cases hp : Isa.parseInstruction b0 b1 b2 <;> rw [hp] at h <;> exact hl h
  rw [this _ k5]
  exact ⟨[(c.pc, b0), (word (c.pc.toNat + 1), b1), (word (c.pc.toNat + 2), b2)], rfl, by simp, ⟨[], rfl⟩⟩

/-- The calls of one instruction that panics. -/
theorem asked_next_error {c : Mos6502 Copy} {l : List Call} {p : Panic}
    (h : Asked (Live.next b c) l (.error p)) : Panicked b c.address_map (regs c) l p := by
  unfold Live.next at h
  rcases asked_bind.1 h with ⟨_, _, i, rfl, h0, k1⟩ | ⟨_, he, h0⟩
  rotate_left
  · cases he
    obtain ⟨reads, rfl, h1, h2⟩ := asked_fetch_error h0
    refine ⟨reads, .inl ⟨.inl ⟨h1, h2⟩, rfl, fun B _ bus hr => ?_⟩⟩
    unfold next
    rw [← interp_fetch (withRegs (regs c) bus) c.address_map]
    rw [show interp b (withRegs (regs c) bus).address_map
      (Live.fetch b (named c.address_map (withRegs (regs c) bus))) = _ from interp_asked (bus := bus) h0 hr]
    rfl
  obtain ⟨-, b0, b1, b2, hp, rfl⟩ := asked_fetch h0
  have hfetch : ∀ (B : Type) [Addressable B] (bus : B),
      (∀ q ∈ [(c.pc, b0), (word (c.pc.toNat + 1), b1), (word (c.pc.toNat + 2), b2)],
        Addressable.read b bus q.1 = .ok q.2) → fetch b (withRegs (regs c) bus) = .ok i :=
    fun B _ bus hr => by
      rw [← interp_fetch (withRegs (regs c) bus) c.address_map]
      exact interp_asked (bus := bus) h0 hr
  rcases asked_bind.1 k1 with ⟨_, _, mops, rfl, h1, k2⟩ | ⟨_, he, h1⟩
  rotate_left
  · cases he
    obtain ⟨rs, rfl, hr1⟩ := asked_begins (follows_generate b c i) h1
    simp only [List.nil_append] at hr1
    refine ⟨_ :: _ :: _ :: rs, .inl ⟨.inr ⟨i, b0, b1, b2, rs, hp, hr1, rfl⟩, by simp [readCalls, regs],
      fun B _ bus hr => ?_⟩⟩
    unfold next
    rw [hfetch B bus fun q hq => hr q (by
      simp only [List.mem_cons, List.not_mem_nil, or_false] at hq ⊢
      rcases hq with hq | hq | hq <;> simp [hq, regs]),
      Res.ok_bind, ← interp_generate (withRegs (regs c) bus) c.address_map i]
    have := interp_asked (bus := bus) h1 (fun q hq => hr q (by simp [hq]))
    rw [show interp b (withRegs (regs c) bus).address_map (Live.generate b (named c.address_map (withRegs (regs c) bus)) i) = _
      from this]
    rfl
  obtain ⟨rs, rfl, hr1, hr2⟩ := asked_follows (follows_generate b c i) h1
  simp only [List.nil_append] at hr1 hr2
  have hgen : ∀ (B : Type) [Addressable B] (bus : B), (∀ q ∈ rs, Addressable.read b bus q.1 = .ok q.2) →
      i.generate b (withRegs (regs c) bus) = .ok mops := fun B _ bus hr => by
    rw [← interp_generate (withRegs (regs c) bus) c.address_map i]
    exact interp_asked (bus := bus) h1 hr
  rcases asked_bind.1 k2 with ⟨_, _, steps, rfl, h2, k3⟩ | ⟨_, he, h2⟩
  rotate_left
  · cases he
    obtain ⟨rfl, h3⟩ := asked_lift_error.1 h2
    refine ⟨_ :: _ :: _ :: rs, .inl ⟨.inr ⟨i, b0, b1, b2, rs, hp, hr1, rfl⟩, by simp [readCalls, regs],
      fun B _ bus hr => ?_⟩⟩
    unfold next
    rw [hfetch B bus fun q hq => hr q (by
      simp only [List.mem_cons, List.not_mem_nil, or_false] at hq ⊢
      rcases hq with hq | hq | hq <;> simp [hq, regs]),
      Res.ok_bind, hgen B bus fun q hq => hr q (by simp [hq]), Res.ok_bind, h3]
    rfl
  obtain ⟨rfl, h2s⟩ := asked_lift.1 h2
  obtain ⟨hc, rfl⟩ := intoSteps_inv h2s
  have hflat : (List.replicate (mops.cycles - 1) ([] : List Microcode) ++ [microcodeOf mops]).flatten =
      microcodeOf mops := by simp
  rw [hflat] at k3
  rcases asked_bind.1 k3 with ⟨_, _, c₁, rfl, h3, k4⟩ | ⟨_, he, h3⟩
  · rw [pure_eq, asked_done] at k4
    cases k4.2
  cases he
  exact ⟨_ :: _ :: _ :: rs, .inr ⟨i, mops, _, ⟨b0, b1, b2, rs, hp, ⟨hr1, hr2⟩, rfl⟩,
    fun B _ bus hr => hgen B bus hr, asked_executeAll_error _ _ _ _ h3, by simp [readCalls, regs]⟩⟩

/-- The calls of a `run` that panics. -/
theorem asked_runLoop_error (n : Nat) : ∀ (r : Regs) (l : List Call) (p : Panic),
    Asked (Live.runLoop b n (withRegs r .iterator) [] (withRegs r .own)) l (.error p) → RanInto b n r l p := by
  induction n using Nat.strongRecOn with
  | ind n ih =>
    intro r l p h
    by_cases hn : n = 0
    · subst hn
      simp [Live.runLoop, asked_done] at h
    · rw [live_step n (by omega)] at h
      rcases asked_bind.1 h with ⟨_, _, ⟨ops, it'⟩, rfl, h0, k1⟩ | ⟨_, he, h0⟩
      rotate_left
      · cases he
        exact .clone (by omega) (asked_next_error h0)
      obtain ⟨ha, hr, reads, vs, hone, hvs, hst, rfl⟩ := asked_next h0
      have hreg : regs it' = (microcodeOf ops).foldl regAct r := hr
      rcases asked_bind.1 k1 with ⟨_, _, steps, rfl, h1, k2⟩ | ⟨_, -, h1⟩
      rotate_left
      · obtain ⟨-, h1⟩ := asked_lift_error.1 h1
        rw [hst] at h1
        cases h1
      obtain ⟨rfl, -⟩ := asked_lift.1 h1
      have hit : it' = withRegs ((microcodeOf ops).foldl regAct r) .iterator := by
        rw [← named_regs it', hr, ha]; rfl
      simp only at k2
      by_cases hlt : n < ops.cycles
      · rw [if_pos hlt, pure_eq, asked_done] at k2
        cases k2.2
      · rw [if_neg hlt] at k2
        rcases asked_bind.1 k2 with ⟨_, _, c₁, rfl, h2, k3⟩ | ⟨_, he, h2⟩
        rotate_left
        · cases he
          have := RanInto.own (n := n) hone (by omega) hvs (asked_executeAll_error _ _ _ _ h2)
          simp only [List.append_assoc, List.nil_append]
          exact this
        rw [asked_executeAll] at h2
        obtain ⟨vs', hvs', rfl, rfl⟩ := h2
        rw [hit] at k3
        have hpos := hone.choose_spec.2.2
        have h4 := ih _ (by omega) _ _ _ k3
        rw [hreg] at hone
        have := RanInto.whole hone (by omega) hvs hvs' h4
        simp only [List.append_assoc, List.nil_append]
        exact this

end Verif.Mos
