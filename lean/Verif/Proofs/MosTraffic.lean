import Verif.Model.Mos.Peripheral
import Verif.Spec.MosTraffic
import Verif.Proofs.MosRun

/-!
# Stores, registers and the bus
-/

namespace Verif.Mos

open Verif Verif.Spec.Mos

theorem stores_append (l l' : List Microcode) : stores (l ++ l') = stores l ++ stores l' := by
  induction l with
  | nil => rfl
  | cons mc l ih => cases mc <;> simp [stores, ih]

theorem writeCalls_eq (l : List Microcode) : writeCalls l = stores l := by
  induction l with
  | nil => rfl
  | cons mc l ih =>
    unfold writeCalls at ih ⊢
    cases mc <;> simp [stores, ih]

theorem programStores_cons (ops : Operations) (l : List Operations) :
    programStores (ops :: l) = storesOf ops ++ programStores l := List.flatMap_cons

theorem stores_flatMap (l : List Operations) : stores (l.flatMap microcodeOf) = programStores l := by
  induction l with
  | nil => rfl
  | cons o l ih => rw [List.flatMap_cons, stores_append, ih, programStores_cons]; rfl

theorem range_contains (r : AddrRange) (a : Word) :
    r.contains a = decide (r.start.toNat ≤ a.toNat ∧ a.toNat ≤ r.stop.toNat) := by
  simp [AddrRange.contains]

/-- What one step of microcode does to the registers. -/
def regAct (r : Regs) : Microcode → Regs
  | .WriteMemory _ _ => r
  | .SetProgramStatusFlagState flag value => regs (setFlag (withRegs r ()) flag value)
  | .Write8bitRegister reg value => regs (write8 (withRegs r ()) reg value)
  | .Inc8bitRegister reg value => regs (inc8 (withRegs r ()) reg value)
  | .Dec8bitRegister reg value => regs (dec8 (withRegs r ()) reg value)
  | .Write16bitRegister .Pc value => { r with pc := value }
  | .Inc16bitRegister .Pc value => { r with pc := r.pc + value }
  | .Dec16bitRegister .Pc value => { r with pc := r.pc - value }

section
variable {B : Type} [Addressable B] {b : Build}

theorem writeAll_append (bus : B) (ws ws' : List (Word × Byte)) :
    writeAll b bus (ws ++ ws') = (writeAll b bus ws).bind (fun bus' => writeAll b bus' ws') := by
  induction ws generalizing bus with
  | nil => rfl
  | cons w ws ih =>
    obtain ⟨a, v⟩ := w
    simp only [List.cons_append, writeAll]
    rcases Addressable.write b bus a v with p | ⟨_ | _, bus'⟩
    · rfl
    · rfl
    · exact ih bus'

/-- A list of microcode acts on registers and bus independently. -/
theorem exec_split (mcs : List Microcode) (c : Mos6502 B) :
    executeAll b mcs c = (writeAll b c.address_map (stores mcs)).map
      (withRegs (mcs.foldl regAct (regs c))) := by
  induction mcs generalizing c with
  | nil => rfl
  | cons mc mcs ih =>
    cases mc with
    | WriteMemory a v =>
      rw [exec_write]
      simp only [stores, writeAll]
      rcases Addressable.write b c.address_map a v with p | ⟨_ | _, bus⟩
      · rfl
      · rfl
      · show executeAll b mcs _ = _
        rw [ih]; rfl
    | SetProgramStatusFlagState f v =>
      simp only [executeAll, executeMut, Res.ok_bind, ih, stores, List.foldl]
      cases f <;> rfl
    | Write8bitRegister r v =>
      simp only [executeAll, executeMut, Res.ok_bind, ih, stores, List.foldl]
      cases r <;> rfl
    | Inc8bitRegister r v =>
      simp only [executeAll, executeMut, Res.ok_bind, ih, stores, List.foldl]
      cases r <;> rfl
    | Dec8bitRegister r v =>
      simp only [executeAll, executeMut, Res.ok_bind, ih, stores, List.foldl]
      cases r <;> rfl
    | Write16bitRegister r v =>
      cases r
      simp only [executeAll, executeMut, Res.ok_bind, ih, stores, List.foldl]
      rfl
    | Inc16bitRegister r v =>
      cases r
      simp only [executeAll, executeMut, Res.ok_bind, ih, stores, List.foldl]
      rfl
    | Dec16bitRegister r v =>
      cases r
      simp only [executeAll, executeMut, Res.ok_bind, ih, stores, List.foldl]
      rfl

theorem exec_split_ok {mcs : List Microcode} {c c' : Mos6502 B} (h : executeAll b mcs c = .ok c') :
    writeAll b c.address_map (stores mcs) = .ok c'.address_map ∧
      regs c' = mcs.foldl regAct (regs c) := by
  rw [exec_split] at h
  cases hw : writeAll b c.address_map (stores mcs) with
  | error p => rw [hw] at h; cases h
  | ok bus => rw [hw] at h; cases h; exact ⟨rfl, rfl⟩

/-- `next`, in terms of the instruction's microcode. -/
theorem next_microcode {c c' : Mos6502 B} {ops : Operations} (h : next b c = .ok (ops, c')) :
    0 < ops.cycles ∧ ops.intoSteps b = .ok (List.replicate (ops.cycles - 1) [] ++ [microcodeOf ops]) ∧
      executeAll b (microcodeOf ops) c = .ok c' := by
  obtain ⟨hc, mcs, hs, he⟩ := next_inv h
  have hm : mcs = microcodeOf ops := by
    have hs' := hs
    unfold Operations.intoSteps at hs'
    simp only at hs'
    rw [if_neg (by omega)] at hs'
    simp only [Except.ok.injEq] at hs'
    have := List.append_cancel_left hs'
    simp only [List.cons.injEq, and_true] at this
    exact this.symm
  subst hm
  exact ⟨hc, hs, he⟩

theorem next_stores {c c' : Mos6502 B} {ops : Operations} (h : next b c = .ok (ops, c')) :
    writeAll b c.address_map (storesOf ops) = .ok c'.address_map :=
  (exec_split_ok (next_microcode h).2.2).1

theorem instructions_stores {c c' : Mos6502 B} {l : List Operations} (h : Instructions b c l c') :
    writeAll b c.address_map (programStores l) = .ok c'.address_map := by
  induction h with
  | nil c => rfl
  | cons hx _ ih =>
    rw [programStores_cons, writeAll_append, next_stores hx]
    exact ih

/-! ## Draining the iterator -/

theorem drain_pending {it : Mos6502 B} (n : Nat) (p : List (List Microcode)) :
    drainLoop b n it p = drainLoop b (n - p.length) it [] := by
  induction p generalizing n with
  | nil => rfl
  | cons s p ih =>
    cases n with
    | zero => simp [drainLoop]
    | succ n => rw [drainLoop, ih, List.length_cons, Nat.add_sub_add_right]

theorem drain_step (n : Nat) (hn : 0 < n) (c : Mos6502 B) :
    drainLoop b n c [] = (match next b c with
      | .error p => .error p
      | .ok (ops, c') => drainLoop b (n - ops.cycles) c' []) := by
  cases n with
  | zero => omega
  | succ n =>
    simp only [drainLoop]
    cases hx : next b c with
    | error p => rfl
    | ok q =>
      obtain ⟨ops, c'⟩ := q
      obtain ⟨hc, hs, -⟩ := next_microcode hx
      simp only [Res.ok_bind, hs]
      cases hk : List.replicate (ops.cycles - 1) ([] : List Microcode) ++ [microcodeOf ops] with
      | nil => simp at hk
      | cons s rest =>
        have hl : rest.length + 1 = ops.cycles := by
          have := congrArg List.length hk
          simp only [List.length_append, List.length_replicate, List.length_cons, List.length_nil] at this
          omega
        show drainLoop b n c' rest = _
        rw [drain_pending, ← hl, Nat.add_sub_add_right]

/-- Draining `n` cycles executes whole instructions, as many as have started within the `n`
cycles, unless one of them panics. -/
theorem drain_cases (n : Nat) : ∀ c : Mos6502 B,
    (∃ l c', Instructions b c l c' ∧ n ≤ totalCycles l ∧
      (∀ l' o, l = l' ++ [o] → totalCycles l' < n) ∧ drain b c n = .ok c') ∨
    (∃ l c' p, Instructions b c l c' ∧ totalCycles l < n ∧ next b c' = .error p ∧
      drain b c n = .error p) := by
  unfold drain
  induction n using Nat.strongRecOn with
  | ind n ih =>
    intro c
    by_cases hn : n = 0
    · subst hn
      exact .inl ⟨[], c, .nil c, Nat.zero_le _, by intro l' o h; simp at h, rfl⟩
    · rw [drain_step n (by omega)]
      cases hx : next b c with
      | error p => exact .inr ⟨[], c, p, .nil c, by simp only [totalCycles, List.map_nil, List.sum_nil]; omega, hx, rfl⟩
      | ok q =>
        obtain ⟨ops, d⟩ := q
        have hc := (next_microcode hx).1
        rcases ih (n - ops.cycles) (by omega) d with ⟨l, e, h1, h2, h3, h4⟩ | ⟨l, e, p, h1, h2, h3, h4⟩
        · refine .inl ⟨ops :: l, e, .cons hx h1, ?_, ?_, h4⟩
          · rw [totalCycles_cons]; omega
          · intro l' o hl
            cases l' with
            | nil => simp only [totalCycles, List.map_nil, List.sum_nil]; omega
            | cons o' l' =>
              simp only [List.cons_append, List.cons.injEq] at hl
              obtain ⟨rfl, hl⟩ := hl
              have := h3 l' o hl
              rw [totalCycles_cons]; omega
        · refine .inr ⟨ops :: l, e, p, .cons hx h1, ?_, h3, h4⟩
          rw [totalCycles_cons]; omega

/-! ## Capturing -/

theorem capture_step (n : Nat) (hn : 0 < n) (c : Mos6502 B) :
    captureLoop b n c [] = (match next b c with
      | .error p => .error p
      | .ok (ops, c') => if n < ops.cycles then .ok [] else
          (captureLoop b (n - ops.cycles) c' []).map (microcodeOf ops ++ ·)) := by
  cases n with
  | zero => omega
  | succ n =>
    simp only [captureLoop]
    cases hx : next b c with
    | error p => rfl
    | ok p =>
      obtain ⟨ops, c'⟩ := p
      obtain ⟨hc, hs, he⟩ := next_microcode hx
      simp only [Res.ok_bind, hs]
      obtain ⟨k, hk⟩ : ∃ k, ops.cycles = k + 1 := ⟨ops.cycles - 1, by omega⟩
      have := capture_pending (b := b) (it := c') (mcs := microcodeOf ops) k (n + 1)
      rw [hk]
      simp only [Nat.add_sub_cancel]
      cases k with
      | zero =>
        simp only [List.replicate_zero, List.nil_append]
        simp only [List.replicate_zero, List.nil_append, captureLoop] at this
        rw [this, if_neg (by omega), if_neg (by omega)]
        simp only [Nat.add_sub_cancel, Nat.sub_zero, Nat.zero_add]
      | succ k =>
        simp only [List.replicate_succ, List.cons_append]
        simp only [List.replicate_succ, List.cons_append, captureLoop] at this
        rw [this]
        by_cases h' : n + 1 ≤ k + 1
        · rw [if_pos h', if_pos (by omega)]
        · rw [if_neg h', if_neg (by omega)]
          have : n + 1 - (k + 1) - 1 = n + 1 - (k + 1 + 1) := by omega
          rw [this]

/-- What `n` cycles capture: the microcode of the instructions completed within them. -/
theorem capture_cases (n : Nat) : ∀ c : Mos6502 B,
    (∃ l c', Instructions b c l c' ∧ totalCycles l ≤ n ∧
      (totalCycles l = n ∨ ∃ ops c'', next b c' = .ok (ops, c'') ∧ n < totalCycles l + ops.cycles) ∧
      capture b c n = .ok (l.flatMap microcodeOf)) ∨
    (∃ l c' p, Instructions b c l c' ∧ totalCycles l < n ∧ next b c' = .error p ∧
      capture b c n = .error p) := by
  unfold capture
  induction n using Nat.strongRecOn with
  | ind n ih =>
    intro c
    by_cases hn : n = 0
    · subst hn
      exact .inl ⟨[], c, .nil c, Nat.le_refl _, .inl rfl, rfl⟩
    · rw [capture_step n (by omega)]
      cases hx : next b c with
      | error p => exact .inr ⟨[], c, p, .nil c, by simp only [totalCycles, List.map_nil, List.sum_nil]; omega, hx, rfl⟩
      | ok q =>
        obtain ⟨ops, d⟩ := q
        have hc := (next_microcode hx).1
        simp only
        by_cases hlt : n < ops.cycles
        · rw [if_pos hlt]
          refine .inl ⟨[], c, .nil c, Nat.zero_le _, .inr ⟨ops, d, hx, ?_⟩, rfl⟩
          simp only [totalCycles, List.map_nil, List.sum_nil]; omega
        · rw [if_neg hlt]
          rcases ih (n - ops.cycles) (by omega) d with ⟨l, e, h1, h2, h3, h4⟩ | ⟨l, e, p, h1, h2, h3, h4⟩
          · refine .inl ⟨ops :: l, e, .cons hx h1, ?_, ?_, ?_⟩
            · rw [totalCycles_cons]; omega
            · rcases h3 with h3 | ⟨o, e', h3, h3'⟩
              · left; rw [totalCycles_cons]; omega
              · right; refine ⟨o, e', h3, ?_⟩; rw [totalCycles_cons]; omega
            · rw [h4]; rfl
          · refine .inr ⟨ops :: l, e, p, .cons hx h1, ?_, h3, ?_⟩
            · rw [totalCycles_cons]; omega
            · rw [h4]; rfl

/-! ## The log of `run` -/

theorem runLog_pending {it cpu : Mos6502 B} {mcs : List Microcode}
    (h : executeAll b mcs cpu = .ok it) (k n : Nat) :
    runLogLoop b n it (List.replicate k [] ++ [mcs]) cpu =
      if n ≤ k then .ok (cpu, []) else
        (runLogLoop b (n - k - 1) it [] it).map (fun q => (q.1, stores mcs ++ q.2)) := by
  induction k generalizing n with
  | zero =>
    cases n with
    | zero => simp [runLogLoop]
    | succ n =>
      simp only [List.replicate_zero, List.nil_append, runLogLoop, h, Res.ok_bind, writeCalls_eq]
      rw [if_neg (by omega)]
      simp only [Nat.sub_zero, Nat.add_sub_cancel]
      cases runLogLoop b n it [] it <;> rfl
  | succ k ih =>
    cases n with
    | zero => simp [runLogLoop]
    | succ n =>
      simp only [List.replicate_succ, List.cons_append, runLogLoop, executeAll, Res.ok_bind, writeCalls_eq]
      rw [ih]
      by_cases hk : n ≤ k
      · rw [if_pos hk, if_pos (by omega)]; rfl
      · rw [if_neg hk, if_neg (by omega)]
        have : n + 1 - (k + 1) - 1 = n - k - 1 := by omega
        rw [this]
        cases runLogLoop b (n - k - 1) it [] it <;> rfl

theorem runLog_step (n : Nat) (hn : 0 < n) (c : Mos6502 B) :
    runLogLoop b n c [] c = (match next b c with
      | .error p => .error p
      | .ok (ops, c') => if n < ops.cycles then .ok (c, storesOf ops) else
          (runLogLoop b (n - ops.cycles) c' [] c').map
            (fun q => (q.1, storesOf ops ++ (storesOf ops ++ q.2)))) := by
  cases n with
  | zero => omega
  | succ n =>
    simp only [runLogLoop]
    cases hx : next b c with
    | error p => rfl
    | ok q =>
      obtain ⟨ops, c'⟩ := q
      obtain ⟨hc, hs, he⟩ := next_microcode hx
      simp only [Res.ok_bind, hs]
      have hflat : (List.replicate (ops.cycles - 1) ([] : List Microcode) ++ [microcodeOf ops]).flatten =
          microcodeOf ops := by simp
      rw [hflat, writeCalls_eq]
      obtain ⟨k, hk⟩ : ∃ k, ops.cycles = k + 1 := ⟨ops.cycles - 1, by omega⟩
      rw [hk]
      simp only [Nat.add_sub_cancel]
      cases k with
      | zero =>
        simp only [List.replicate_zero, List.nil_append, he, Res.ok_bind, writeCalls_eq]
        rw [if_neg (by omega)]
        simp only [Nat.zero_add, Nat.add_sub_cancel]
        cases runLogLoop b n c' [] c' <;> rfl
      | succ k =>
        simp only [List.replicate_succ, List.cons_append, executeAll, Res.ok_bind, writeCalls_eq,
          stores, List.nil_append]
        rw [runLog_pending he]
        by_cases h' : n ≤ k
        · rw [if_pos h', if_pos (by omega)]
          simp only [Res.ok_bind, List.append_nil]
          rfl
        · rw [if_neg h', if_neg (by omega)]
          have : n - k - 1 = n + 1 - (k + 1 + 1) := by omega
          rw [this]
          cases runLogLoop b (n + 1 - (k + 1 + 1)) c' [] c' <;> rfl

/-- The log forgets into `run`. -/
theorem runLog_erase (n : Nat) : ∀ (it : Mos6502 B) (pending : List (List Microcode)) (cpu : Mos6502 B),
    (runLogLoop b n it pending cpu).map Prod.fst = runLoop b n it pending cpu := by
  induction n with
  | zero => intro it pending cpu; cases pending <;> rfl
  | succ n ih =>
    intro it pending cpu
    cases pending with
    | cons step rest =>
      simp only [runLogLoop, runLoop]
      cases executeAll b step cpu with
      | error p => rfl
      | ok c =>
        simp only [Res.ok_bind, ← ih]
        cases runLogLoop b n it rest c <;> rfl
    | nil =>
      simp only [runLogLoop, runLoop]
      cases next b it with
      | error p => rfl
      | ok q =>
        obtain ⟨ops, it'⟩ := q
        simp only [Res.ok_bind]
        cases ops.intoSteps b with
        | error p => rfl
        | ok steps =>
          simp only [Res.ok_bind]
          cases steps with
          | nil => rfl
          | cons step rest =>
            simp only
            cases executeAll b step cpu with
            | error p => rfl
            | ok c =>
              simp only [Res.ok_bind, ← ih]
              cases runLogLoop b n it' rest c <;> rfl

theorem runLog_cases (n : Nat) : ∀ c : Mos6502 B,
    (∃ l c', Instructions b c l c' ∧ totalCycles l ≤ n ∧
      ((totalCycles l = n ∧ runLogLoop b n c [] c = .ok (c', twice l)) ∨
        ∃ ops c'', next b c' = .ok (ops, c'') ∧ totalCycles l < n ∧ n < totalCycles l + ops.cycles ∧
          runLogLoop b n c [] c = .ok (c', twice l ++ storesOf ops))) ∨
    (∃ l c' p, Instructions b c l c' ∧ totalCycles l < n ∧ next b c' = .error p ∧
      runLogLoop b n c [] c = .error p) := by
  induction n using Nat.strongRecOn with
  | ind n ih =>
    intro c
    by_cases hn : n = 0
    · subst hn
      exact .inl ⟨[], c, .nil c, Nat.le_refl _, .inl ⟨rfl, rfl⟩⟩
    · rw [runLog_step n (by omega)]
      cases hx : next b c with
      | error p => exact .inr ⟨[], c, p, .nil c, by simp only [totalCycles, List.map_nil, List.sum_nil]; omega, hx, rfl⟩
      | ok q =>
        obtain ⟨ops, d⟩ := q
        have hc := (next_microcode hx).1
        simp only
        by_cases hlt : n < ops.cycles
        · rw [if_pos hlt]
          refine .inl ⟨[], c, .nil c, Nat.zero_le _, .inr ⟨ops, d, hx, ?_, ?_, rfl⟩⟩ <;>
            simp only [totalCycles, List.map_nil, List.sum_nil] <;> omega
        · rw [if_neg hlt]
          have tw : ∀ l, twice (ops :: l) = storesOf ops ++ (storesOf ops ++ twice l) := by
            intro l; simp [twice]
          rcases ih (n - ops.cycles) (by omega) d with ⟨l, e, h1, h2, h3⟩ | ⟨l, e, p, h1, h2, h3, h4⟩
          · refine .inl ⟨ops :: l, e, .cons hx h1, ?_, ?_⟩
            · rw [totalCycles_cons]; omega
            · rw [totalCycles_cons, tw]
              rcases h3 with ⟨h3, h4⟩ | ⟨o, e', h3, h5, h6, h4⟩
              · left; refine ⟨by omega, ?_⟩
                rw [h4]; rfl
              · right; refine ⟨o, e', h3, by omega, by omega, ?_⟩
                rw [h4]
                simp only [Except.map, List.append_assoc]
          · refine .inr ⟨ops :: l, e, p, .cons hx h1, ?_, h3, ?_⟩
            · rw [totalCycles_cons]; omega
            · rw [h4]; rfl

/-! ## The hook -/

/-- Is the microcode kept by the hook? -/
def kept (range : AddrRange) : Microcode → Bool
  | .WriteMemory a _ => !range.contains a
  | _ => true

theorem hookLoop_eq {V : Type} (range : AddrRange) (hook : V → Word → Byte → V)
    (mcs : List Microcode) (via : V) (cpu : Mos6502 B) :
    hookLoop b range hook mcs via cpu =
      (executeAll b (mcs.filter (kept range)) cpu).map
        (fun c => (told hook via (inside range (stores mcs)), c)) := by
  induction mcs generalizing via cpu with
  | nil => rfl
  | cons mc mcs ih =>
    have other : ∀ (mc : Microcode), kept range mc = true → stores (mc :: mcs) = stores mcs →
        (hookLoop b range hook (mc :: mcs) via cpu = (executeMut b cpu mc).bind
          fun c => hookLoop b range hook mcs via c) →
        hookLoop b range hook (mc :: mcs) via cpu =
          (executeAll b ((mc :: mcs).filter (kept range)) cpu).map
            (fun c => (told hook via (inside range (stores (mc :: mcs))), c)) := by
      intro mc hk hs he
      rw [he, hs, List.filter_cons, if_pos hk]
      simp only [executeAll]
      cases executeMut b cpu mc with
      | error p => rfl
      | ok c => exact ih via c
    cases mc with
    | WriteMemory a v =>
      have hin : inside range ((a, v) :: stores mcs) =
          if range.contains a then (a, v) :: inside range (stores mcs) else inside range (stores mcs) := by
        simp only [inside, List.filter_cons, ← range_contains]
      simp only [hookLoop, stores, List.filter_cons, kept, hin]
      by_cases hr : range.contains a = true
      · simp only [hr, if_true, Bool.not_true, Bool.false_eq_true, if_false]
        rw [ih]; rfl
      · simp only [hr, Bool.false_eq_true, if_false, Bool.not_false, if_true, executeAll]
        cases executeMut b cpu (.WriteMemory a v) with
        | error p => rfl
        | ok c => exact ih via c
    | SetProgramStatusFlagState f v => exact other _ rfl rfl rfl
    | Write8bitRegister r v => exact other _ rfl rfl rfl
    | Inc8bitRegister r v => exact other _ rfl rfl rfl
    | Dec8bitRegister r v => exact other _ rfl rfl rfl
    | Write16bitRegister r v => exact other _ rfl rfl rfl
    | Inc16bitRegister r v => exact other _ rfl rfl rfl
    | Dec16bitRegister r v => exact other _ rfl rfl rfl

theorem stores_kept (range : AddrRange) (mcs : List Microcode) :
    stores (mcs.filter (kept range)) = outside range (stores mcs) := by
  induction mcs with
  | nil => rfl
  | cons mc mcs ih =>
    simp only [outside, ← range_contains] at ih ⊢
    cases mc with
    | WriteMemory a v =>
      simp only [List.filter_cons, kept, stores]
      by_cases hr : range.contains a = true
      · simp only [hr, Bool.not_true, Bool.false_eq_true, if_false]; exact ih
      · simp only [hr, Bool.not_false, if_true, stores]
        rw [ih]
    | _ => simp only [List.filter_cons, kept, if_true, stores]; exact ih

theorem regs_kept (range : AddrRange) (mcs : List Microcode) (r : Regs) :
    (mcs.filter (kept range)).foldl regAct r = mcs.foldl regAct r := by
  induction mcs generalizing r with
  | nil => rfl
  | cons mc mcs ih =>
    by_cases hk : kept range mc = true
    · rw [List.filter_cons, if_pos hk]; exact ih _
    · rw [List.filter_cons, if_neg hk]
      cases mc with
      | WriteMemory a v => exact ih _
      | _ => exact absurd rfl hk

end

/-! ## The stores of an instruction -/

/-- A bus that only remembers what is written to it. -/
structure LogBus where
  log : List (Word × Byte)

/-- A bus for examples that keeps a list of what was written. -/
instance : Addressable LogBus where
  read _ _ _ := .ok 0
  write _ d a v := .ok (.ok v, ⟨d.log ++ [(a, v)]⟩)

theorem writeAll_log (b : Build) (d : LogBus) (ws : List (Word × Byte)) :
    writeAll b d ws = .ok ⟨d.log ++ ws⟩ := by
  induction ws generalizing d with
  | nil => simp [writeAll]
  | cons w ws ih =>
    obtain ⟨a, v⟩ := w
    show writeAll b (LogBus.mk (d.log ++ [(a, v)])) ws = _
    rw [ih]; simp

/-- The microcode of an instruction stores exactly what the instruction writes. -/
theorem stores_code (r : Regs) (mem : Mem) (mn : Mnemonic) (am : AddrMode) :
    storesOf (code r mem mn am) = (codeEffect r mem mn am).writes := by
  have h1 := exec_code (b := .debug) r (LogBus.mk []) mem mn am
  have h2 := exec_split (b := .debug) (microcodeOf (code r mem mn am)) (withRegs r (LogBus.mk []))
  have h3 : executeAll .debug (microcodeOf (code r mem mn am)) (withRegs r (LogBus.mk [])) = _ := h1
  rw [h2, writeAll_log, writeAll_log] at h3
  simp only [Except.map, Except.ok.injEq] at h3
  have := congrArg (fun c => c.address_map.log) h3
  simpa [withRegs, storesOf] using this

end Verif.Mos
