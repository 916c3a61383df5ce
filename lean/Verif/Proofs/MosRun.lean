import Verif.Spec.MosRun
import Verif.Model.Mos.Capture
import Verif.Proofs.MosStack

/-!
# `run` in terms of whole instructions
-/

namespace Verif.Mos

open Verif Verif.Spec.Mos

section
variable {B : Type} [Addressable B] {b : Build}

/-- What a successful `next` tells about the microcode. -/
theorem next_inv {c c' : Mos6502 B} {ops : Operations} (h : next b c = .ok (ops, c')) :
    0 < ops.cycles ∧ ∃ mcs, ops.intoSteps b = .ok (List.replicate (ops.cycles - 1) [] ++ [mcs]) ∧
      executeAll b mcs c = .ok c' := by
  unfold next at h
  cases hf : fetch b c with
  | error e => rw [hf] at h; cases h
  | ok i =>
    rw [hf, Res.ok_bind] at h
    cases hg : i.generate b c with
    | error e => rw [hg] at h; cases h
    | ok mops =>
      rw [hg, Res.ok_bind] at h
      cases hs : mops.intoSteps b with
      | error e => rw [hs] at h; cases h
      | ok steps =>
        rw [hs, Res.ok_bind] at h
        cases he : executeAll b steps.flatten c with
        | error e => rw [he] at h; cases h
        | ok cpu' =>
          rw [he, Res.ok_bind] at h
          simp only [Except.ok.injEq, Prod.mk.injEq] at h
          obtain ⟨rfl, rfl⟩ := h
          have hs' := hs
          unfold Operations.intoSteps at hs'
          simp only at hs'
          split at hs'
          · cases hs'
          · rename_i hc
            simp only [Except.ok.injEq] at hs'
            refine ⟨by omega, mops.microcode ++ [Microcode.Inc16bitRegister WordRegisters.Pc
              (BitVec.ofNat 16 mops.offset)], ?_, ?_⟩
            · rw [hs, ← hs']
            · rw [← hs', flatten_steps] at he; exact he

/-- Waiting out the empty cycles of an instruction. -/
theorem runLoop_pending {it cpu : Mos6502 B} {mcs : List Microcode}
    (h : executeAll b mcs cpu = .ok it) (k n : Nat) :
    runLoop b n it (List.replicate k [] ++ [mcs]) cpu =
      if n ≤ k then .ok cpu else runLoop b (n - k - 1) it [] it := by
  induction k generalizing n with
  | zero =>
    cases n with
    | zero => simp [runLoop]
    | succ n => simp [runLoop, h, Res.ok_bind]
  | succ k ih =>
    cases n with
    | zero => simp [runLoop]
    | succ n =>
      simp only [List.replicate_succ, List.cons_append, runLoop, executeAll, Res.ok_bind]
      rw [ih]
      by_cases hk : n ≤ k
      · rw [if_pos hk, if_pos (by omega)]
      · rw [if_neg hk, if_neg (by omega)]
        congr 1; omega

/-- One instruction of `run`. -/
theorem runLoop_step (n : Nat) (hn : 0 < n) (c : Mos6502 B) :
    runLoop b n c [] c = (match next b c with
      | .error p => .error p
      | .ok (ops, c') => if n < ops.cycles then .ok c else runLoop b (n - ops.cycles) c' [] c') := by
  cases n with
  | zero => omega
  | succ n =>
    simp only [runLoop]
    cases hx : next b c with
    | error p => rfl
    | ok p =>
      obtain ⟨ops, c'⟩ := p
      obtain ⟨hc, mcs, hs, he⟩ := next_inv hx
      simp only [Res.ok_bind, hs]
      obtain ⟨k, hk⟩ : ∃ k, ops.cycles = k + 1 := ⟨ops.cycles - 1, by omega⟩
      have := runLoop_pending he k (n + 1)
      rw [hk]
      simp only [Nat.add_sub_cancel]
      cases k with
      | zero =>
        simp only [List.replicate_zero, List.nil_append]
        simp only [List.replicate_zero, List.nil_append, runLoop] at this
        rw [this, if_neg (by omega), if_neg (by omega)]
        rfl
      | succ k =>
        simp only [List.replicate_succ, List.cons_append]
        simp only [List.replicate_succ, List.cons_append, runLoop] at this
        rw [this]
        by_cases h' : n + 1 ≤ k + 1
        · rw [if_pos h', if_pos (by omega)]
        · rw [if_neg h', if_neg (by omega)]
          congr 1

theorem totalCycles_cons (ops : Operations) (l : List Operations) :
    totalCycles (ops :: l) = ops.cycles + totalCycles l := by simp [totalCycles]

/-- `run` after some whole instructions that fit. -/
theorem runLoop_instructions {c c' : Mos6502 B} {l : List Operations} (h : Instructions b c l c') :
    ∀ n, totalCycles l ≤ n → runLoop b n c [] c = runLoop b (n - totalCycles l) c' [] c' := by
  induction h with
  | nil c => intro n _; rfl
  | @cons c c' c'' ops l hx _ ih =>
    intro n hn
    rw [totalCycles_cons] at hn ⊢
    obtain ⟨hc, -⟩ := next_inv hx
    rw [runLoop_step n (by omega), hx]
    simp only
    rw [if_neg (by omega), ih _ (by omega)]
    congr 1; omega

/-- How every `run` goes. -/
theorem runLoop_cases (n : Nat) : ∀ c : Mos6502 B,
    (∃ l c', Instructions b c l c' ∧ totalCycles l ≤ n ∧
      (totalCycles l = n ∨ ∃ ops c'', next b c' = .ok (ops, c'') ∧ n < totalCycles l + ops.cycles) ∧
      runLoop b n c [] c = .ok c') ∨
    (∃ l c' p, Instructions b c l c' ∧ totalCycles l < n ∧ next b c' = .error p ∧
      runLoop b n c [] c = .error p) := by
  induction n using Nat.strongRecOn with
  | ind n ih =>
    intro c
    by_cases hn : n = 0
    · subst hn
      exact .inl ⟨[], c, .nil c, by simp [totalCycles], .inl (by simp [totalCycles]), rfl⟩
    · have hstep := runLoop_step (b := b) n (by omega) c
      cases hx : next b c with
      | error p =>
        rw [hx] at hstep
        exact .inr ⟨[], c, p, .nil c, by simp [totalCycles]; omega, hx, hstep⟩
      | ok q =>
        obtain ⟨ops, c'⟩ := q
        rw [hx] at hstep
        simp only at hstep
        obtain ⟨hc, -⟩ := next_inv hx
        by_cases hlt : n < ops.cycles
        · rw [if_pos hlt] at hstep
          exact .inl ⟨[], c, .nil c, by simp [totalCycles],
            .inr ⟨ops, c', hx, by simp [totalCycles]; exact hlt⟩, hstep⟩
        · rw [if_neg hlt] at hstep
          rcases ih (n - ops.cycles) (by omega) c' with ⟨l, d, h1, h2, h3, h4⟩ | ⟨l, d, p, h1, h2, h3, h4⟩
          · refine .inl ⟨ops :: l, d, .cons hx h1, by rw [totalCycles_cons]; omega, ?_,
              hstep.trans h4⟩
            rcases h3 with h3 | ⟨ops', d', h3, h3'⟩
            · exact .inl (by rw [totalCycles_cons]; omega)
            · exact .inr ⟨ops', d', h3, by rw [totalCycles_cons]; omega⟩
          · exact .inr ⟨ops :: l, d, p, .cons hx h1, by rw [totalCycles_cons]; omega, h3,
              hstep.trans h4⟩

theorem run_eq (c : Mos6502 B) (n : Nat) :
    run b c n = (runLoop b n c [] c).map StepState.ready := by
  unfold run
  cases runLoop b n c [] c <;> rfl

theorem instructions_append {c c' c'' : Mos6502 B} {l l' : List Operations}
    (h : Instructions b c l c') (h' : Instructions b c' l' c'') : Instructions b c (l ++ l') c'' := by
  induction h with
  | nil _ => exact h'
  | cons hx _ ih => exact .cons hx (ih h')

/-- Replaying after capturing is running. -/
theorem executeAll_append (l l' : List Microcode) (c : Mos6502 B) :
    executeAll b (l ++ l') c = (executeAll b l c).bind (executeAll b l') := by
  induction l generalizing c with
  | nil => rfl
  | cons mc l ih =>
    simp only [List.cons_append, executeAll]
    cases executeMut b c mc with
    | error e => rfl
    | ok c' => simp only [Res.ok_bind]; exact ih c'

theorem capture_runLoop (n : Nat) : ∀ (it : Mos6502 B) (pending : List (List Microcode))
    (cpu : Mos6502 B) (l : List Microcode), captureLoop b n it pending = .ok l →
    executeAll b l cpu = runLoop b n it pending cpu := by
  induction n with
  | zero =>
    intro it pending cpu l h
    simp only [captureLoop, Except.ok.injEq] at h
    subst h
    simp [runLoop, executeAll]
  | succ n ih =>
    intro it pending cpu l h
    have key : ∀ it (step : List Microcode) rest,
        (captureLoop b n it rest).bind (fun l => .ok (step ++ l)) = .ok l →
        executeAll b l cpu = (executeAll b step cpu).bind (fun cpu' => runLoop b n it rest cpu') := by
      intro it step rest h
      cases hc : captureLoop b n it rest with
      | error e => rw [hc] at h; cases h
      | ok l' =>
        rw [hc] at h
        have h : step ++ l' = l := by simpa [Except.bind] using h
        subst h
        rw [executeAll_append]
        cases executeAll b step cpu with
        | error e => rfl
        | ok cpu' => exact ih it rest cpu' l' hc
    cases pending with
    | cons step rest =>
      simp only [captureLoop] at h
      simp only [runLoop]
      exact key it step rest h
    | nil =>
      simp only [captureLoop] at h
      simp only [runLoop]
      cases hx : next b it with
      | error e => rw [hx] at h; cases h
      | ok p =>
        obtain ⟨ops, it'⟩ := p
        rw [hx] at h
        simp only [Res.ok_bind] at h ⊢
        cases hs : ops.intoSteps b with
        | error e => rw [hs] at h; cases h
        | ok steps =>
          rw [hs] at h
          simp only [Res.ok_bind] at h ⊢
          cases steps with
          | nil => simp only [Except.ok.injEq] at h; subst h; rfl
          | cons step rest => exact key it' step rest h

theorem capture_pending {it : Mos6502 B} {mcs : List Microcode} (k n : Nat) :
    captureLoop b n it (List.replicate k [] ++ [mcs]) =
      if n ≤ k then .ok [] else (captureLoop b (n - k - 1) it []).map (mcs ++ ·) := by
  induction k generalizing n with
  | zero =>
    cases n with
    | zero => simp [captureLoop]
    | succ n =>
      simp only [List.replicate_zero, List.nil_append, captureLoop, Nat.le_zero_eq, Nat.add_eq_zero_iff]
      rw [if_neg (by omega)]
      simp only [Nat.sub_zero, Nat.add_sub_cancel]
      cases captureLoop b n it [] <;> rfl
  | succ k ih =>
    cases n with
    | zero => simp [captureLoop]
    | succ n =>
      simp only [List.replicate_succ, List.cons_append, captureLoop, List.nil_append]
      rw [ih]
      by_cases hk : n ≤ k
      · rw [if_pos hk, if_pos (by omega)]; rfl
      · rw [if_neg hk, if_neg (by omega)]
        have : n + 1 - (k + 1) - 1 = n - k - 1 := by omega
        rw [this]
        cases captureLoop b (n - k - 1) it [] <;> rfl

theorem captureLoop_step (n : Nat) (hn : 0 < n) (c : Mos6502 B) :
    (captureLoop b n c []).map (fun _ => ()) = (match next b c with
      | .error p => .error p
      | .ok (ops, c') => if n < ops.cycles then .ok () else
          (captureLoop b (n - ops.cycles) c' []).map (fun _ => ())) := by
  cases n with
  | zero => omega
  | succ n =>
    simp only [captureLoop]
    cases hx : next b c with
    | error p => rfl
    | ok p =>
      obtain ⟨ops, c'⟩ := p
      obtain ⟨hc, mcs, hs, he⟩ := next_inv hx
      simp only [Res.ok_bind, hs]
      obtain ⟨k, hk⟩ : ∃ k, ops.cycles = k + 1 := ⟨ops.cycles - 1, by omega⟩
      have := capture_pending (b := b) (it := c') (mcs := mcs) k (n + 1)
      rw [hk]
      simp only [Nat.add_sub_cancel]
      cases k with
      | zero =>
        simp only [List.replicate_zero, List.nil_append]
        simp only [List.replicate_zero, List.nil_append, captureLoop] at this
        rw [this, if_neg (by omega), if_neg (by omega)]
        simp only [Nat.add_sub_cancel, Nat.sub_zero, Nat.zero_add]
        cases captureLoop b n c' [] <;> rfl
      | succ k =>
        simp only [List.replicate_succ, List.cons_append]
        simp only [List.replicate_succ, List.cons_append, captureLoop] at this
        rw [this]
        by_cases h' : n + 1 ≤ k + 1
        · rw [if_pos h', if_pos (by omega)]; rfl
        · rw [if_neg h', if_neg (by omega)]
          have : n + 1 - (k + 1) - 1 = n + 1 - (k + 1 + 1) := by omega
          rw [this]
          cases captureLoop b (n + 1 - (k + 1 + 1)) c' [] <;> rfl

/-- The capture panics exactly when the run does. -/
theorem capture_panics (n : Nat) : ∀ c : Mos6502 B,
    (captureLoop b n c []).map (fun _ => ()) = (runLoop b n c [] c).map (fun _ => ()) := by
  induction n using Nat.strongRecOn with
  | ind n ih =>
    intro c
    by_cases hn : n = 0
    · subst hn; rfl
    · rw [captureLoop_step n (by omega), runLoop_step n (by omega)]
      cases hx : next b c with
      | error p => rfl
      | ok q =>
        obtain ⟨ops, c'⟩ := q
        obtain ⟨hc, -⟩ := next_inv hx
        simp only
        by_cases hlt : n < ops.cycles
        · rw [if_pos hlt, if_pos hlt]; rfl
        · rw [if_neg hlt, if_neg hlt]; exact ih _ (by omega) c'

end

end Verif.Mos
