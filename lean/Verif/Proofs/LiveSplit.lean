import Verif.Spec.LiveSplit
import Verif.Proofs.LiveRun
import Verif.Proofs.LiveChip8

/-!
# Runs on devices with a shared part
-/

namespace Verif.Live

open Verif Verif.Spec.Mos Verif.Spec.Live Verif.Live.Bus

section
variable {W D E : Type} [Device W D] [Device W E] {b : Build}

theorem answers_append {s s' : Site W D} {l l' : List Call} :
    Answers b s (l ++ l') s' ↔ ∃ s₁, Answers b s l s₁ ∧ Answers b s₁ l' s' := by
  induction l generalizing s with
  | nil =>
    constructor
    · intro h; exact ⟨s, .nil _, h⟩
    · rintro ⟨s₁, h1, h2⟩; cases h1; exact h2
  | cons c l ih =>
    constructor
    · intro h
      cases h with
      | read hd h => obtain ⟨s₁, h1, h2⟩ := ih.1 h; exact ⟨s₁, .read hd h1, h2⟩
      | write hd h => obtain ⟨s₁, h1, h2⟩ := ih.1 h; exact ⟨s₁, .write hd h1, h2⟩
    · rintro ⟨s₁, h1, h2⟩
      cases h1 with
      | read hd h => exact .read hd (ih.2 ⟨s₁, h, h2⟩)
      | write hd h => exact .write hd (ih.2 ⟨s₁, h, h2⟩)

/-- Reads leave the own parts alone. -/
theorem steady_reads (hD : Steady b W D) {who : Copy} {rs : List (Word × Byte)} {s s' : Site W D}
    (h : Answers b s (readCalls who rs) s') : s'.iterator = s.iterator ∧ s'.own = s.own := by
  induction rs generalizing s with
  | nil => cases h; exact ⟨rfl, rfl⟩
  | cons p rs ih =>
    cases h with
    | read hd h =>
      have := hD.read hd
      subst this
      obtain ⟨h1, h2⟩ := ih h
      cases who <;> exact ⟨h1, h2⟩

/-- The own part of a device after writes that were accepted. -/
inductive Wrote (b : Build) (W : Type) {D : Type} [Device W D] : D → List (Word × Byte) → D → Prop
  | nil (d : D) : Wrote b W d [] d
  | cons {d d₁ d' : D} {a : Word} {x v : Byte} {w w₁ : W} {ws : List (Word × Byte)} :
      Device.write b d a x w = (.ok (.ok v, d₁), w₁) → Wrote b W d₁ ws d' → Wrote b W d ((a, x) :: ws) d'

theorem wrote_unique (hD : Steady b W D) {d d₁ d₂ : D} {ws : List (Word × Byte)} (h₁ : Wrote b W d ws d₁)
    (h₂ : Wrote b W d ws d₂) : d₁ = d₂ := by
  induction h₁ with
  | nil => cases h₂; rfl
  | cons hw _ ih =>
    cases h₂ with
    | cons hw' h₂ =>
      have := hD.write hw hw'
      subst this
      exact ih h₂

/-- Writes change the own part of the clone they are made on only. -/
theorem puts_wrote {who : Copy} {ws : List (Word × Byte)} {vs : List Byte} {s s' : Site W D}
    (hl : vs.length = ws.length) (h : Answers b s (putCalls who ws vs) s') :
    Wrote b W (s.on who) ws (s'.on who) ∧ (who = .own → s'.iterator = s.iterator) ∧
      (who = .iterator → s'.own = s.own) := by
  induction ws generalizing s vs with
  | nil =>
    simp only [putCalls, List.zipWith_nil_left] at h
    cases h
    exact ⟨.nil _, fun _ => rfl, fun _ => rfl⟩
  | cons p ws ih =>
    cases vs with
    | nil => simp at hl
    | cons v vs =>
      cases h with
      | write hd h =>
        obtain ⟨h1, h2, h3⟩ := ih (by simpa using hl) h
        cases who with
        | iterator => exact ⟨.cons hd h1, fun e => (by cases e), fun e => h3 e⟩
        | own => exact ⟨.cons hd h1, fun e => h2 e, fun e => (by cases e)⟩

/-- After an instruction that was executed on both clones, these are equal again. -/
theorem both_clones (hD : Steady b W D) {rs ws : List (Word × Byte)} {vs vs' : List Byte} {d : D} {w : W}
    {s₁ s₂ : Site W D} (h1 : vs.length = ws.length) (h2 : vs'.length = ws.length)
    (ha : Answers b (atStart d w) (readCalls .iterator rs ++ putCalls .iterator ws vs) s₁)
    (ha' : Answers b s₁ (putCalls .own ws vs') s₂) : s₂ = atStart s₂.own s₂.world := by
  obtain ⟨s₀, hr, hp⟩ := answers_append.1 ha
  obtain ⟨e1, e2⟩ := steady_reads hD hr
  obtain ⟨hw, -, e3⟩ := puts_wrote h1 hp
  obtain ⟨hw', e4, -⟩ := puts_wrote h2 ha'
  have e5 : s₁.own = d := (e3 rfl).trans e2
  have e6 : s₀.iterator = d := e1
  simp only [Site.on, e5, e6] at hw hw'
  have := wrote_unique hD hw hw'
  have e7 := (e4 rfl).trans this
  obtain ⟨it, own, w'⟩ := s₂
  cases e7
  rfl

/-! ## Such devices -/

/-- Devices that are values. -/
theorem steady_value {B : Type} [Addressable B] : Steady b W (Value B) := by
  constructor
  · intro d d' a v w w' h
    have h : ((Addressable.read b d.dev a).map fun v => (v, d), w) = (.ok (v, d'), w') := h
    cases hr : Addressable.read b d.dev a with
    | error e => rw [hr] at h; cases h
    | ok v => rw [hr] at h; cases h; rfl
  · intro d d₁ d₂ a x v v' w w₁ w' w₂ h h'
    have h : ((Addressable.write b d.dev a x).map fun p => (p.1, (⟨p.2⟩ : Value B)), w) =
      (.ok (.ok v, d₁), w₁) := h
    have h' : ((Addressable.write b d.dev a x).map fun p => (p.1, (⟨p.2⟩ : Value B)), w') =
      (.ok (.ok v', d₂), w₂) := h'
    cases hr : Addressable.write b d.dev a x with
    | error e => rw [hr] at h; cases h
    | ok p =>
      rw [hr] at h h'
      simp only [Except.map, Prod.mk.injEq, Except.ok.injEq] at h h'
      exact h.1.2.symm.trans h'.1.2

/-- Devices all of whose state is shared. -/
theorem steady_shared (hr : ∀ (d d' : D) (a : Word) (v : Byte) (w w' : W),
      Device.read b d a w = (.ok (v, d'), w') → d' = d)
    (hw : ∀ (d d' : D) (a : Word) (x v : Byte) (w w' : W),
      Device.write b d a x w = (.ok (.ok v, d'), w') → d' = d) : Steady b W D :=
  ⟨fun h => hr _ _ _ _ _ _ h, fun h h' => (hw _ _ _ _ _ _ _ h).trans (hw _ _ _ _ _ _ _ h').symm⟩

theorem mapped {α β : Type} {x : Res α × W} {f : α → β} {y : β} {w' : W} (h : (x.1.map f, x.2) = (.ok y, w')) :
    ∃ z, x = (.ok z, w') ∧ f z = y := by
  obtain ⟨_ | z, w⟩ := x
  · cases h
  · simp only [Except.map, Prod.mk.injEq, Except.ok.injEq] at h
    obtain ⟨rfl, rfl⟩ := h
    exact ⟨z, rfl, rfl⟩

/-- Devices of two kinds. -/
theorem steady_sum (hD : Steady b W D) (hE : Steady b W E) : Steady b W (D ⊕ E) := by
  constructor
  · intro d d' a v w w' h
    cases d with
    | inl d =>
      have hq : Device.read b (.inl d : D ⊕ E) a w =
        ((Device.read b d a w).1.map (fun p => (p.1, .inl p.2)), (Device.read b d a w).2) := by
        show (match Device.read b d a w with
          | (.ok (v, d'), w') => (Except.ok (v, (.inl d' : D ⊕ E)), w')
          | (.error e, w') => (Except.error e, w')) = _
        rcases Device.read b d a w with ⟨_ | ⟨_, _⟩, _⟩ <;> rfl
      rw [hq] at h
      obtain ⟨⟨v₁, d₁⟩, h1, h2⟩ := mapped h
      cases h2
      rw [hD.read h1]
    | inr d =>
      have hq : Device.read b (.inr d : D ⊕ E) a w =
        ((Device.read b d a w).1.map (fun p => (p.1, .inr p.2)), (Device.read b d a w).2) := by
        show (match Device.read b d a w with
          | (.ok (v, d'), w') => (Except.ok (v, (.inr d' : D ⊕ E)), w')
          | (.error e, w') => (Except.error e, w')) = _
        rcases Device.read b d a w with ⟨_ | ⟨_, _⟩, _⟩ <;> rfl
      rw [hq] at h
      obtain ⟨⟨v₁, d₁⟩, h1, h2⟩ := mapped h
      cases h2
      rw [hE.read h1]
  · intro d d₁ d₂ a x v v' w w₁ w' w₂ h h'
    cases d with
    | inl d =>
      have hq : ∀ w : W, Device.write b (.inl d : D ⊕ E) a x w =
        ((Device.write b d a x w).1.map (fun p => (p.1, .inl p.2)), (Device.write b d a x w).2) := by
        intro w
        show (match Device.write b d a x w with
          | (.ok (v, d'), w') => (Except.ok (v, (.inl d' : D ⊕ E)), w')
          | (.error e, w') => (Except.error e, w')) = _
        rcases Device.write b d a x w with ⟨_ | ⟨_, _⟩, _⟩ <;> rfl
      rw [hq] at h h'
      obtain ⟨⟨v₁, e₁⟩, h1, h2⟩ := mapped h
      obtain ⟨⟨v₂, e₂⟩, h3, h4⟩ := mapped h'
      cases h2
      cases h4
      rw [hD.write h1 h3]
    | inr d =>
      have hq : ∀ w : W, Device.write b (.inr d : D ⊕ E) a x w =
        ((Device.write b d a x w).1.map (fun p => (p.1, .inr p.2)), (Device.write b d a x w).2) := by
        intro w
        show (match Device.write b d a x w with
          | (.ok (v, d'), w') => (Except.ok (v, (.inr d' : D ⊕ E)), w')
          | (.error e, w') => (Except.error e, w')) = _
        rcases Device.write b d a x w with ⟨_ | ⟨_, _⟩, _⟩ <;> rfl
      rw [hq] at h h'
      obtain ⟨⟨v₁, e₁⟩, h1, h2⟩ := mapped h
      obtain ⟨⟨v₂, e₂⟩, h3, h4⟩ := mapped h'
      cases h2
      cases h4
      rw [hE.write h1 h3]

/-- Maps of such devices. -/
theorem steady_map (hD : Steady b W D) : Steady b W (AddressMap D) := by
  have reads : ∀ (es es' : List (AddrRange × D)) (a : Word) (v : Byte) (w w' : W),
      mapReadEntries b a w es = (.ok (v, es'), w') → es' = es := by
    intro es
    induction es with
    | nil => intro es' a v w w' h; cases h; rfl
    | cons e es ih =>
      obtain ⟨r, d⟩ := e
      intro es' a v w w' h
      simp only [mapReadEntries] at h
      by_cases hr : r.contains a = true
      · rw [if_pos hr] at h
        rcases hx : Device.read b d a w with ⟨e | ⟨v₁, d₁⟩, w₁⟩
        · rw [hx] at h; cases h
        · rw [hx] at h; cases h; rw [hD.read hx]
      · rw [if_neg hr] at h
        rcases hx : mapReadEntries b a w es with ⟨e | ⟨v₁, d₁⟩, w₁⟩
        · rw [hx] at h; cases h
        · rw [hx] at h; cases h; rw [ih _ _ _ _ _ hx]
  have writes : ∀ (es es₁ es₂ : List (AddrRange × D)) (a : Word) (x v v' : Byte) (w w₁ w' w₂ : W),
      mapWriteEntries b a x w es = (.ok (.ok v, es₁), w₁) →
      mapWriteEntries b a x w' es = (.ok (.ok v', es₂), w₂) → es₁ = es₂ := by
    intro es
    induction es with
    | nil => intro es₁ es₂ a x v v' w w₁ w' w₂ h; cases h
    | cons e es ih =>
      obtain ⟨r, d⟩ := e
      intro es₁ es₂ a x v v' w w₁ w' w₂ h h'
      simp only [mapWriteEntries] at h h'
      by_cases hr : r.contains a = true
      · rw [if_pos hr] at h h'
        rcases hx : Device.write b d a x w with ⟨e | ⟨v₁, d₁⟩, u₁⟩
        · rw [hx] at h; cases h
        · rcases hx' : Device.write b d a x w' with ⟨e | ⟨v₂, d₂⟩, u₂⟩
          · rw [hx'] at h'; cases h'
          · rw [hx] at h; rw [hx'] at h'; cases h; cases h'; rw [hD.write hx hx']
      · rw [if_neg hr] at h h'
        rcases hx : mapWriteEntries b a x w es with ⟨e | ⟨v₁, d₁⟩, u₁⟩
        · rw [hx] at h; cases h
        · rcases hx' : mapWriteEntries b a x w' es with ⟨e | ⟨v₂, d₂⟩, u₂⟩
          · rw [hx'] at h'; cases h'
          · rw [hx] at h; rw [hx'] at h'; cases h; cases h'; rw [ih _ _ _ _ _ _ _ _ _ _ hx hx']
  constructor
  · rintro ⟨es⟩ ⟨es'⟩ a v w w' h
    have h : mapRead b ⟨es⟩ a w = (.ok (v, ⟨es'⟩), w') := h
    unfold mapRead at h
    rcases hx : mapReadEntries b a w es with ⟨e | ⟨v₁, es₁⟩, w₁⟩
    · simp only [hx] at h; cases h
    · simp only [hx] at h; cases h; rw [reads _ _ _ _ _ _ hx]
  · rintro ⟨es⟩ ⟨es₁⟩ ⟨es₂⟩ a x v v' w w₁ w' w₂ h h'
    have h : mapWrite b ⟨es⟩ a x w = (.ok (.ok v, ⟨es₁⟩), w₁) := h
    have h' : mapWrite b ⟨es⟩ a x w' = (.ok (.ok v', ⟨es₂⟩), w₂) := h'
    unfold mapWrite at h h'
    rcases hx : mapWriteEntries b a x w es with ⟨e | ⟨v₁, d₁⟩, u₁⟩
    · simp only [hx] at h; cases h
    · rcases hx' : mapWriteEntries b a x w' es with ⟨e | ⟨v₂, d₂⟩, u₂⟩
      · simp only [hx'] at h'; cases h'
      · simp only [hx] at h; simp only [hx'] at h'; cases h; cases h'
        rw [writes _ _ _ _ _ _ _ _ _ _ _ hx hx']

end

/-! ## The 6502 -/

section
variable {W D : Type} [Device W D] {b : Build}
open Verif.Mos

/-- The first instruction of a run. -/
theorem split_step (hD : Steady b W D) {r : Regs} {d : D} {w : W} {ops : Operations} {it : Mos6502 Copy}
    {s₁ : Site W D} (hx : exec b (Mos.Live.next b (withRegs r .iterator)) (atStart d w) = (.ok (ops, it), s₁)) :
    0 < ops.cycles ∧
    (∀ n, 0 < n → n < ops.cycles →
      exec b (Mos.Live.runLoop b n (withRegs r .iterator) [] (withRegs r .own)) (atStart d w) =
        (.ok (withRegs r .own), s₁)) ∧
    ((∃ e s₂, ∀ n, ops.cycles ≤ n →
      exec b (Mos.Live.runLoop b n (withRegs r .iterator) [] (withRegs r .own)) (atStart d w) = (.error e, s₂)) ∨
    ∃ d' w', ∀ n,
      exec b (Mos.Live.runLoop b (ops.cycles + n) (withRegs r .iterator) [] (withRegs r .own)) (atStart d w) =
        exec b (Mos.Live.runLoop b n (withRegs (regs it) .iterator) [] (withRegs (regs it) .own))
          (atStart d' w')) := by
  obtain ⟨l, hl, ha⟩ := exec_ok_iff.1 hx
  obtain ⟨e1, e2, reads, vs, -, hvs, hs, rfl⟩ := asked_next hl
  obtain ⟨hc, -⟩ := intoSteps_inv hs
  have hit : it = withRegs (regs it) .iterator := by rw [← named_regs it, e1]; rfl
  have hstep : ∀ n, 0 < n →
      exec b (Mos.Live.runLoop b n (withRegs r .iterator) [] (withRegs r .own)) (atStart d w) =
        if n < ops.cycles then (.ok (withRegs r .own), s₁) else
        match exec b (Mos.Live.executeAll (microcodeOf ops) (withRegs r .own)) s₁ with
          | (.ok c', s') => exec b (Mos.Live.runLoop b (n - ops.cycles) it [] c') s'
          | (.error e, s') => (.error e, s') := by
    intro n hn
    rw [live_step n hn, exec_bind, hx]
    simp only [hs, lift_eq, ok_bind]
    by_cases hlt : n < ops.cycles
    · rw [if_pos hlt, if_pos hlt]; rfl
    · rw [if_neg hlt, if_neg hlt, exec_bind]
      rcases exec b (Mos.Live.executeAll (microcodeOf ops) (withRegs r Copy.own)) s₁ with ⟨_ | _, _⟩ <;> rfl
  refine ⟨hc, fun n h1 h2 => by rw [hstep n h1, if_pos h2], ?_⟩
  rcases hy : exec b (Mos.Live.executeAll (microcodeOf ops) (withRegs r .own)) s₁ with ⟨e | c', s₂⟩
  · refine .inl ⟨e, s₂, fun n hn => ?_⟩
    rw [hstep n (by omega), if_neg (by omega), hy]
  · obtain ⟨l', hl', ha'⟩ := exec_ok_iff.1 hy
    obtain ⟨vs', hvs', rfl, rfl⟩ := (asked_executeAll _ _ _ _).1 hl'
    have hs₂ : s₂ = atStart s₂.own s₂.world := both_clones hD hvs hvs' ha ha'
    refine .inr ⟨s₂.own, s₂.world, fun n => ?_⟩
    rw [hstep _ (by omega), if_neg (by omega), hy, Nat.add_sub_cancel_left, ← hs₂]
    simp only
    have : withRegs ((microcodeOf ops).foldl regAct (regs (withRegs r Copy.own))) (withRegs r Copy.own).address_map =
        withRegs (regs it) Copy.own := by rw [e2]; rfl
    rw [this, ← hit]

/-- A run is its complete instructions, and the calls of the one in which the cycles end. -/
theorem split_runLoop (hD : Steady b W D) (m : Nat) : ∀ (r : Regs) (d : D) (w : W) (c' : Mos6502 Copy)
    (s' : Site W D),
    exec b (Mos.Live.runLoop b m (withRegs r .iterator) [] (withRegs r .own)) (atStart d w) = (.ok c', s') →
    c' = withRegs (regs c') .own ∧ ∃ k d₁ w₁, k ≤ m ∧
      (∀ n, exec b (Mos.Live.runLoop b (k + n) (withRegs r .iterator) [] (withRegs r .own)) (atStart d w) =
        exec b (Mos.Live.runLoop b n (withRegs (regs c') .iterator) [] (withRegs (regs c') .own))
          (atStart d₁ w₁)) ∧
      ((k = m ∧ s' = atStart d₁ w₁) ∨ (k < m ∧ ∃ ops it,
        exec b (Mos.Live.next b (withRegs (regs c') .iterator)) (atStart d₁ w₁) = (.ok (ops, it), s') ∧
        m < k + ops.cycles)) := by
  induction m using Nat.strongRecOn with
  | ind m ih =>
    intro r d w c' s' h
    by_cases hm : m = 0
    · subst hm
      simp only [Mos.Live.runLoop, pure_eq, exec, Prod.mk.injEq, Except.ok.injEq] at h
      obtain ⟨rfl, rfl⟩ := h
      exact ⟨rfl, 0, d, w, Nat.le_refl _, fun n => by rw [Nat.zero_add]; rfl, .inl ⟨rfl, rfl⟩⟩
    · rcases hx : exec b (Mos.Live.next b (withRegs r .iterator)) (atStart d w) with ⟨e | ⟨ops, it⟩, s₁⟩
      · rw [live_step m (by omega), exec_bind, hx] at h
        cases h
      · obtain ⟨hc, hcut, hw⟩ := split_step hD hx
        by_cases hlt : m < ops.cycles
        · rw [hcut m (by omega) hlt] at h
          simp only [Prod.mk.injEq, Except.ok.injEq] at h
          obtain ⟨rfl, rfl⟩ := h
          exact ⟨rfl, 0, d, w, Nat.zero_le _, fun n => by rw [Nat.zero_add]; rfl,
            .inr ⟨by omega, ops, it, hx, by omega⟩⟩
        · rcases hw with ⟨e, s₂, hw⟩ | ⟨d', w', hw⟩
          · rw [hw m (by omega)] at h; cases h
          · have h' := h
            rw [show m = ops.cycles + (m - ops.cycles) by omega, hw] at h'
            obtain ⟨h1, k, d₁, w₁, hk, hn, hend⟩ := ih (m - ops.cycles) (by omega) _ _ _ _ _ h'
            refine ⟨h1, ops.cycles + k, d₁, w₁, by omega, fun n => ?_, ?_⟩
            · rw [Nat.add_assoc, hw, hn]
            · rcases hend with ⟨h2, h3⟩ | ⟨h2, ops', it', h3, h4⟩
              · exact .inl ⟨by omega, h3⟩
              · exact .inr ⟨by omega, ops', it', h3, by omega⟩

end

/-! ## The CHIP-8 -/

section
variable {W D R : Type} [Device W D] {b : Build}
open Verif.Chip8

/-- A bus that accepts everything. -/
structure Sink where

instance : Addressable Sink where
  read _ _ _ := .ok 0
  write _ d _ v := .ok (.ok v, d)

theorem sink_writes (ws : List (Word × Byte)) : writeAll b (⟨⟩ : Sink) ws = .ok ⟨⟩ := by
  induction ws with
  | nil => rfl
  | cons p ws ih => exact ih

theorem folds_unique {t : Instant} {c c₁ c₂ : Chip8 Unit R} {mcs : List Microcode} (h₁ : Folds b t c mcs c₁)
    (h₂ : Folds b t c mcs c₂) : c₁ = c₂ := by
  have h1 := h₁ Sink ⟨⟩ ⟨⟩ (sink_writes _)
  have h2 := h₂ Sink ⟨⟩ ⟨⟩ (sink_writes _)
  rw [h1] at h2
  have h3 : onBus c₁ (⟨⟩ : Sink) = onBus c₂ ⟨⟩ := by simpa using h2
  exact congrArg (fun c : Chip8 Sink R => onBus c ()) h3

theorem next_folds {e : Env} {c : Chip8 Unit R} {who : Copy} {l : List Call} {mcs : List Microcode}
    {q : Chip8 Copy R} (h : Asked (Chip8.Live.next b e (onBus c who)) l (.ok (mcs, q))) :
    ∃ c', q = onBus c' who ∧ Folds b e.iterAt c mcs c' := by
  unfold Chip8.Live.next at h
  obtain ⟨_, _, op, rfl, h0, k1⟩ := Mos.asked_bind_ok.1 h
  obtain ⟨_, _, m, rfl, h1, k2⟩ := Mos.asked_bind_ok.1 k1
  obtain ⟨_, _, q', rfl, h2, k3⟩ := Mos.asked_bind_ok.1 k2
  rw [pure_eq, asked_done] at k3
  obtain ⟨rfl, k3⟩ := k3
  simp only [Except.ok.injEq, Prod.mk.injEq] at k3
  obtain ⟨rfl, rfl⟩ := k3
  obtain ⟨ws, -, -, hok⟩ := Chip8.asked_executeAll e.iterAt _ c who _ _ h2
  obtain ⟨c', vs, rfl, -, -, hF⟩ := hok _ rfl
  exact ⟨c', rfl, hF⟩

theorem chip8_runLoop (hD : Steady b W D) {env : Nat → Env} (hc : ∀ k, (env k).iterAt = (env k).foldAt)
    (m : Nat) : ∀ (j : Nat) (c : Chip8 Unit R) (d : D) (w : W) (q : Chip8 Copy R) (s' : Site W D),
    exec b (Chip8.Live.runLoop b env m j (onBus c .iterator) (onBus c .own)) (atStart d w) = (.ok q, s') →
    ∃ c' : Chip8 Unit R, q = onBus c' .own ∧ s' = atStart s'.own s'.world ∧ ∀ n,
      exec b (Chip8.Live.runLoop b env (m + n) j (onBus c .iterator) (onBus c .own)) (atStart d w) =
        exec b (Chip8.Live.runLoop b env n (j + m) (onBus c' .iterator) (onBus c' .own)) s' := by
  induction m with
  | zero =>
    intro j c d w q s' h
    simp only [Chip8.Live.runLoop, pure_eq, exec, Prod.mk.injEq, Except.ok.injEq] at h
    obtain ⟨rfl, rfl⟩ := h
    exact ⟨c, rfl, rfl, fun n => by rw [Nat.zero_add]; rfl⟩
  | succ m ih =>
    intro j c d w q s' h
    rw [Chip8.Live.runLoop, exec_bind] at h
    rcases hx : exec b (Chip8.Live.next b (env j) (onBus c .iterator)) (atStart d w) with ⟨e | ⟨mcs, it⟩, s₁⟩
    · rw [hx] at h; cases h
    · rw [hx] at h
      simp only [exec_bind] at h
      rcases hy : exec b (Chip8.Live.executeAll b (env j).foldAt (onBus c .own) mcs) s₁ with ⟨e | q₁, s₂⟩
      · rw [hy] at h; cases h
      · rw [hy] at h
        obtain ⟨l, hl, ha⟩ := exec_ok_iff.1 hx
        obtain ⟨l', hl', ha'⟩ := exec_ok_iff.1 hy
        obtain ⟨it₁, reads, vs, hit, -, hvs, rfl⟩ := Chip8.asked_next hl
        obtain ⟨it₂, hit', hF'⟩ := next_folds hl
        obtain ⟨ws, -, -, hok⟩ := Chip8.asked_executeAll _ _ c .own _ _ hl'
        obtain ⟨c₂, vs', rfl, hvs', rfl, hF⟩ := hok _ rfl
        have hs₂ : s₂ = atStart s₂.own s₂.world := both_clones hD hvs hvs' ha ha'
        rw [hc j] at hF'
        have := folds_unique hF hF'
        subst this
        subst hit'
        simp only at h
        rw [hs₂] at h
        obtain ⟨c', h1, h2, h3⟩ := ih (j + 1) c₂ _ _ q s' h
        refine ⟨c', h1, h2, fun n => ?_⟩
        rw [show m + 1 + n = (m + n) + 1 by omega, Chip8.Live.runLoop, exec_bind, hx]
        simp only [exec_bind, hy]
        rw [hs₂, h3 n, show j + (m + 1) = j + 1 + m by omega]

end

end Verif.Live
