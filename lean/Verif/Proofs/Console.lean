import Verif.Spec.Console
import Verif.Proofs.LiveSplit

/-!
# Runs on machines with ports
-/

namespace Verif.Mos

open Verif Verif.Spec Verif.Spec.Mos Verif.Spec.Live Verif.Live Verif.Live.Bus

variable {b : Build}

/-- The answers to the stores of an instruction do not matter. -/
theorem asked_next_any {c c' : Mos6502 Copy} {l : List Call} {ops : Operations}
    (h : Asked (Live.next b c) l (.ok (ops, c'))) :
    ∃ i reads, InstructionReads (regs c) i reads ∧
      (∃ vs, l = readCalls c.address_map reads ++ putCalls c.address_map (storesOf ops) vs) ∧
      ∀ vs, vs.length = (storesOf ops).length →
        Asked (Live.next b c) (readCalls c.address_map reads ++ putCalls c.address_map (storesOf ops) vs)
          (.ok (ops, c')) := by
  unfold Live.next at h
  obtain ⟨_, _, i, rfl, h0, k1⟩ := asked_bind_ok.1 h
  obtain ⟨_, _, mops, rfl, h1, k2⟩ := asked_bind_ok.1 k1
  obtain ⟨_, _, steps, rfl, h2, k3⟩ := asked_bind_ok.1 k2
  obtain ⟨_, _, c₁, rfl, h3, k4⟩ := asked_bind_ok.1 k3
  rw [pure_eq, asked_done] at k4
  obtain ⟨rfl, k4⟩ := k4
  simp only [Except.ok.injEq, Prod.mk.injEq] at k4
  obtain ⟨rfl, rfl⟩ := k4
  obtain ⟨rfl, h2s⟩ := asked_lift.1 h2
  obtain ⟨hc, rfl⟩ := intoSteps_inv h2s
  have hflat : (List.replicate (ops.cycles - 1) ([] : List Microcode) ++ [microcodeOf ops]).flatten =
      microcodeOf ops := by simp
  rw [hflat, asked_executeAll] at h3
  obtain ⟨vs, hvs, rfl, rfl⟩ := h3
  obtain ⟨-, b0, b1, b2, hp, e⟩ := asked_fetch h0
  obtain ⟨rs, rfl, hr1, hr2⟩ := asked_follows (follows_generate b c i) h1
  simp only [List.nil_append] at hr1 hr2
  subst e
  refine ⟨i, _ :: _ :: _ :: rs, ⟨b0, b1, b2, rs, hp, ⟨hr1, hr2⟩, rfl⟩, ⟨vs, ?_⟩, ?_⟩
  · simp [readCalls, storesOf, regs]
  · intro vs' hvs'
    unfold Live.next
    refine asked_bind_ok.2 ⟨_, readCalls c.address_map rs ++ putCalls c.address_map (storesOf ops) vs', i, ?_, h0, ?_⟩
    · simp [readCalls, regs]
    · refine asked_bind_ok.2 ⟨_, _, ops, rfl, h1, ?_⟩
      refine asked_bind_ok.2 ⟨[], _, _, rfl, asked_lift.2 ⟨rfl, h2s⟩, ?_⟩
      refine asked_bind_ok.2 ⟨_, [], _, (List.append_nil _).symm, ?_, asked_done.2 ⟨rfl, rfl⟩⟩
      rw [hflat, asked_executeAll]
      exact ⟨vs', hvs', rfl, rfl⟩

/-- On values, reads are answered by the value and leave it. -/
theorem answers_flat {who : Copy} {m : Mem} {rs : List (Word × Byte)} {s s' : Site Unit (Value FlatRam)}
    {l : List Call} (hs : s.on who = ⟨⟨m⟩⟩) (h : Answers b s (readCalls who rs ++ l) s') :
    ∀ p ∈ rs, p.2 = m p.1 := by
  induction rs generalizing s with
  | nil => intro p hp; cases hp
  | cons q rs ih =>
    cases h with
    | read hd h =>
      rename_i d w
      rw [hs] at hd
      have hd : ((.ok (m q.1, ⟨⟨m⟩⟩) : Res (Byte × Value FlatRam)), s.world) = (.ok (q.2, d), w) := hd
      simp only [Prod.mk.injEq, Except.ok.injEq] at hd
      obtain ⟨⟨h1, rfl⟩, -⟩ := hd
      intro p hp
      rcases List.mem_cons.1 hp with rfl | hp
      · exact h1.symm
      · exact ih (by cases who <;> rfl) h p hp

/-- What an instruction does on memory, it does with the calls for the bytes of that memory. -/
theorem forward {r : Regs} {m : Mem} {ops : Operations} {c' : Mos6502 FlatRam}
    (h : next b (withRegs r (⟨m⟩ : FlatRam)) = .ok (ops, c')) (who : Copy) :
    ∃ i reads, InstructionReads r i reads ∧ (∀ p ∈ reads, p.2 = m p.1) ∧ 0 < ops.cycles ∧
      ops.intoSteps b = .ok (List.replicate (ops.cycles - 1) [] ++ [microcodeOf ops]) ∧
      regs c' = (microcodeOf ops).foldl regAct r ∧
      ∀ vs, vs.length = (storesOf ops).length →
        Asked (Live.next b (withRegs r who)) (readCalls who reads ++ putCalls who (storesOf ops) vs)
          (.ok (ops, withRegs (regs c') who)) := by
  have he := (exec_next (b := b) (withRegs r (⟨m⟩ : FlatRam)) who (⟨⟨⟨m⟩⟩, ⟨⟨m⟩⟩, ()⟩ : Site Unit (Value FlatRam))
    (by cases who <;> rfl)).1 ops c' h
  obtain ⟨l, h1, h2⟩ := exec_ok_iff.1 he
  obtain ⟨ha, hr, reads₀, vs₀, ⟨_, _, _, _, hpos⟩, -, hst, -⟩ := asked_next h1
  obtain ⟨i, reads, hi, ⟨vs, rfl⟩, hany⟩ := asked_next_any h1
  exact ⟨i, reads, hi, answers_flat (by cases who <;> rfl) h2, hpos, hst, hr, hany⟩

/-! ## The reads of an instruction are determined by the memory -/

theorem complete_nil {ask : List Byte → Option Word} : Complete ask [] ↔ ask [] = none := by
  simp [Complete]

theorem complete_cons {ask : List Byte → Option Word} {p : Word × Byte} {rs : List (Word × Byte)} :
    Complete ask (p :: rs) ↔ ask [] = some p.1 ∧ Complete (fun vs => ask (p.2 :: vs)) rs := by
  constructor
  · rintro ⟨h1, h2⟩
    refine ⟨h1 0 (by simp), fun k hk => ?_, h2⟩
    have := h1 (k + 1) (by simpa using hk)
    simpa using this
  · rintro ⟨h1, h2, h3⟩
    refine ⟨fun k hk => ?_, h3⟩
    cases k with
    | zero => simpa using h1
    | succ k =>
      have := h2 k (by simpa using hk)
      simpa using this

theorem complete_unique {m : Mem} {rs rs' : List (Word × Byte)} : ∀ {ask : List Byte → Option Word},
    Complete ask rs → Complete ask rs' → (∀ p ∈ rs, p.2 = m p.1) → (∀ p ∈ rs', p.2 = m p.1) → rs = rs' := by
  induction rs generalizing rs' with
  | nil =>
    intro ask h h' _ _
    cases rs' with
    | nil => rfl
    | cons p rs' => rw [complete_nil] at h; rw [complete_cons, h] at h'; cases h'.1
  | cons p rs ih =>
    intro ask h h' hm hm'
    cases rs' with
    | nil => rw [complete_nil] at h'; rw [complete_cons, h'] at h; cases h.1
    | cons q rs' =>
      rw [complete_cons] at h h'
      have e1 : p.1 = q.1 := by have := h.1.symm.trans h'.1; simpa using this
      have e2 : p.2 = q.2 := by rw [hm p (by simp), hm' q (by simp), e1]
      have e : p = q := Prod.ext e1 e2
      subst e
      rw [ih h.2 h'.2 (fun q hq => hm q (by simp [hq])) (fun q hq => hm' q (by simp [hq]))]

theorem reads_unique {r : Regs} {m : Mem} {i i' : InstructionVariant} {reads reads' : List (Word × Byte)}
    (h : InstructionReads r i reads) (h' : InstructionReads r i' reads') (hm : ∀ p ∈ reads, p.2 = m p.1)
    (hm' : ∀ p ∈ reads', p.2 = m p.1) : i = i' ∧ reads = reads' := by
  obtain ⟨b0, b1, b2, rs, hp, hc, rfl⟩ := h
  obtain ⟨b0', b1', b2', rs', hp', hc', rfl⟩ := h'
  have e0 := (hm (r.pc, b0) (by simp)).trans (hm' (r.pc, b0') (by simp)).symm
  have e1 := (hm (word (r.pc.toNat + 1), b1) (by simp)).trans (hm' (word (r.pc.toNat + 1), b1') (by simp)).symm
  have e2 := (hm (word (r.pc.toNat + 2), b2) (by simp)).trans (hm' (word (r.pc.toNat + 2), b2') (by simp)).symm
  simp only at e0 e1 e2
  subst e0 e1 e2
  rw [hp] at hp'
  cases hp'
  refine ⟨rfl, ?_⟩
  rw [complete_unique hc hc' (fun q hq => hm q (by simp [hq])) (fun q hq => hm' q (by simp [hq]))]

/-! ## On the console -/

section
variable {W : Type} [Wire W]

theorem answers_none {rs : List (Word × Byte)} {d : Console} {w : W} (hm : ∀ p ∈ rs, p.2 = d.mem p.1)
    (hk : d.inp ∉ rs.map Prod.fst) :
    Answers b (atStart d w) (readCalls .iterator rs) (atStart d w) := by
  induction rs with
  | nil => exact .nil _
  | cons p rs ih =>
    simp only [List.map_cons, List.mem_cons, not_or] at hk
    refine .read (d := d) (w := w) ?_ (ih (fun q hq => hm q (by simp [hq])) hk.2)
    show (if p.1 = d.inp then _ else _) = _
    rw [if_neg (fun e => hk.1 e.symm), hm p (by simp)]
    rfl

theorem answers_reads {rs : List (Word × Byte)} {d : Console} {w : W} (hm : ∀ p ∈ rs, p.2 = d.seen w p.1)
    (hk : (rs.map Prod.fst).count d.inp ≤ 1) :
    Answers b (atStart d w) (readCalls .iterator rs)
      (atStart d (takes ((rs.map Prod.fst).count d.inp) w)) := by
  induction rs with
  | nil => exact .nil _
  | cons p rs ih =>
    by_cases hp : p.1 = d.inp
    · simp only [List.map_cons, hp, List.count_cons_self] at hk ⊢
      have h0 : (rs.map Prod.fst).count d.inp = 0 := by omega
      have hn : d.inp ∉ rs.map Prod.fst := List.count_eq_zero.1 h0
      rw [h0]
      refine .read (d := d) (w := (Wire.take w).2) ?_ (answers_none (fun q hq => ?_) hn)
      · show (if p.1 = d.inp then _ else _) = _
        rw [if_pos hp, hm p (by simp), hp, Console.seen, upd, if_pos rfl]
        rfl
      · rw [hm q (by simp [hq]), Console.seen, upd, if_neg]
        intro e
        exact hn (e ▸ List.mem_map_of_mem hq)
    · simp only [List.map_cons, List.count_cons_of_ne hp] at hk ⊢
      refine .read (d := d) (w := w) ?_ (ih (fun q hq => hm q (by simp [hq])) hk)
      show (if p.1 = d.inp then _ else _) = _
      rw [if_neg hp, hm p (by simp), Console.seen, upd, if_neg hp]
      rfl

theorem keep_cons (d : Console) (p : Word × Byte) (ws : List (Word × Byte)) :
    d.keep (p :: ws) = (if p.1 = d.outp then d else { d with mem := upd d.mem p.1 p.2 } : Console).keep ws := by
  by_cases h : p.1 = d.outp
  · simp [Console.keep, h]
  · simp [Console.keep, h, store]

theorem answers_puts {ws : List (Word × Byte)} (who : Copy) {s : Site W Console} {d : Console}
    (hs : s.on who = d) :
    Answers b s (putCalls who ws (ws.map Prod.snd))
      (s.update who (d.keep ws) (gives s.world (shownAt d.outp ws))) := by
  induction ws generalizing s d with
  | nil =>
    have : s.update who (d.keep []) (gives s.world (shownAt d.outp [])) = s := by
      subst hs; cases who <;> rfl
    rw [this]
    exact .nil _
  | cons p ws ih =>
    by_cases hp : p.1 = d.outp
    · refine .write (d := d) (w := Wire.give s.world p.2) ?_ ?_
      · rw [hs]
        show (if p.1 = d.outp then _ else _) = _
        rw [if_pos hp]
      · have := ih (s := s.update who d (Wire.give s.world p.2)) (d := d) (by cases who <;> rfl)
        rw [keep_cons, if_pos hp]
        have e : shownAt d.outp (p :: ws) = p.2 :: shownAt d.outp ws := by simp [shownAt, hp]
        rw [e]
        cases who <;> exact this
    · refine .write (d := { d with mem := upd d.mem p.1 p.2 }) (w := s.world) ?_ ?_
      · rw [hs]
        show (if p.1 = d.outp then _ else _) = _
        rw [if_neg hp]
      · have := ih (s := s.update who { d with mem := upd d.mem p.1 p.2 } s.world)
          (d := { d with mem := upd d.mem p.1 p.2 }) (by cases who <;> rfl)
        rw [keep_cons, if_neg hp]
        have e : shownAt d.outp (p :: ws) = shownAt d.outp ws := by simp [shownAt, hp]
        rw [e]
        cases who <;> exact this

/-- One instruction of `run`. -/
theorem console_step {r : Regs} {d : Console} {w : W} {ops : Operations} {c' : Mos6502 FlatRam}
    {i : InstructionVariant} {reads : List (Word × Byte)} {k : Nat}
    (h : next b (withRegs r (⟨d.seen w⟩ : FlatRam)) = .ok (ops, c')) (hi : InstructionReads r i reads)
    (hm : ∀ p ∈ reads, p.2 = d.seen w p.1) (hk : (reads.map Prod.fst).count d.inp = k) (hk1 : k ≤ 1) (n : Nat) :
    exec b (Live.runLoop b (ops.cycles + n) (withRegs r .iterator) [] (withRegs r .own)) (atStart d w) =
      exec b (Live.runLoop b n (withRegs (regs c') .iterator) [] (withRegs (regs c') .own))
        (atStart (d.keep (storesOf ops))
          (gives (takes k w) (List.replicate 2 (shownAt d.outp (storesOf ops))).flatten)) := by
  obtain ⟨i', reads', hi', hm', hpos, hst, hr, hany⟩ := forward h .iterator
  obtain ⟨-, rfl⟩ := reads_unique hi hi' hm hm'
  subst hk
  have hnext : exec b (Live.next b (withRegs r .iterator)) (atStart d w) =
      (.ok (ops, withRegs (regs c') .iterator),
        (atStart d (takes ((reads.map Prod.fst).count d.inp) w)).update .iterator (d.keep (storesOf ops))
          (gives (takes ((reads.map Prod.fst).count d.inp) w) (shownAt d.outp (storesOf ops)))) :=
    exec_ok_iff.2 ⟨_, hany _ (by simp), answers_append.2 ⟨_, answers_reads hm hk1, answers_puts .iterator rfl⟩⟩
  rw [live_step _ (by omega), exec_bind, hnext]
  simp only [hst, lift_eq, ok_bind]
  rw [if_neg (by omega), exec_bind]
  have hex : ∀ s : Site W Console, s.own = d → exec b (Live.executeAll (microcodeOf ops) (withRegs r .own)) s =
      (.ok (withRegs (regs c') .own), s.update .own (d.keep (storesOf ops))
        (gives s.world (shownAt d.outp (storesOf ops)))) := by
    intro s hs
    refine exec_ok_iff.2 ⟨_, (asked_executeAll _ _ _ _).2 ⟨(storesOf ops).map Prod.snd, by simp [storesOf], rfl, ?_⟩,
      answers_puts .own hs⟩
    rw [hr]; rfl
  rw [hex _ rfl]
  have e : ops.cycles + n - ops.cycles = n := by omega
  simp only [e]
  congr 1
  simp [atStart, Site.update, gives, List.replicate]

end

/-! ## The lamp -/

theorem lamp_gives (v : Byte) (vs : List Byte) : ∀ w : Lamp, gives w (vs ++ [v]) = { w with shows := v } := by
  induction vs with
  | nil => intro w; rfl
  | cons u vs ih => intro w; exact ih (Wire.give w u)

theorem lamp_again (w : Lamp) (vs : List Byte) : gives w (vs ++ vs) = gives w vs := by
  rcases List.eq_nil_or_concat vs with rfl | ⟨us, v, rfl⟩
  · rfl
  · rw [List.concat_eq_append, ← List.append_assoc, lamp_gives, lamp_gives]

end Verif.Mos

namespace Verif.Chip8

open Verif Verif.Spec Verif.Spec.Chip8 Verif.Spec.Live Verif.Live Verif.Live.Bus
open Verif.Mos (FlatRam)
open Verif.Mos (asked_bind_ok)
open Verif.Spec.Mos (Mem word)

variable {b : Build} {e : Env} {R : Type}

/-- The answers to the stores do not matter. -/
theorem asked_executeAll_any (t : Instant) (mcs : List Microcode) : ∀ {c : Chip8 Unit R} {who : Copy}
    {l : List Call} {q : Chip8 Copy R}, Asked (Live.executeAll b t (onBus c who) mcs) l (.ok q) →
    ∀ vs : List Byte, vs.length = (byteStores mcs).length →
      Asked (Live.executeAll b t (onBus c who) mcs) (putCalls who (byteStores mcs) vs) (.ok q) := by
  induction mcs with
  | nil =>
    intro c who l q h vs hvs
    simp only [Live.executeAll, pure_eq, asked_done] at h ⊢
    exact ⟨by cases vs <;> rfl, h.2⟩
  | cons mc mcs ih =>
    intro c who l q h vs hvs
    rcases plain_mc (b := b) t c mc with ⟨a, v, rfl⟩ | ⟨hst, x, hx, hx'⟩
    · simp only [Live.executeAll, Live.executeMut, Live.writeMemory, Bus.put, write_bind, pure_eq, ok_bind,
        asked_write] at h ⊢
      obtain ⟨y, l', rfl, h⟩ := h
      cases y with
      | error msg => simp [unwrapResult, lift_eq, asked_done] at h
      | ok y =>
        cases vs with
        | nil => simp [byteStores] at hvs
        | cons u vs =>
          exact ⟨.ok u, _, rfl, ih h vs (by simpa [byteStores] using hvs)⟩
    · rw [hst] at hvs ⊢
      simp only [Live.executeAll, hx] at h ⊢
      cases x with
      | error p => obtain ⟨-, h⟩ := asked_done.1 h; cases h
      | ok d => exact ih h vs hvs

/-- The answers to the stores of an instruction do not matter. -/
theorem asked_next_any {c : Chip8 Unit R} {who : Copy} {l : List Call} {mcs : List Microcode} {q : Chip8 Copy R}
    (h : Asked (Live.next b e (onBus c who)) l (.ok (mcs, q))) :
    ∃ op b0 b1 rs, Valid op ∧ encode op = b0.toNat * 256 + b1.toNat ∧
      rs.map Prod.fst = cellsFrom c.i (readCount op) ∧
      (∃ vs, l = readCalls who ((c.pc, b0) :: (word (c.pc.toNat + 1), b1) :: rs) ++
        putCalls who (byteStores mcs) vs) ∧
      ∀ vs, vs.length = (byteStores mcs).length →
        Asked (Live.next b e (onBus c who)) (readCalls who ((c.pc, b0) :: (word (c.pc.toNat + 1), b1) :: rs) ++
          putCalls who (byteStores mcs) vs) (.ok (mcs, q)) := by
  unfold Live.next at h
  obtain ⟨_, _, op, rfl, h0, k1⟩ := asked_bind_ok.1 h
  obtain ⟨_, _, m, rfl, h1, k2⟩ := asked_bind_ok.1 k1
  obtain ⟨_, _, q', rfl, h2, k3⟩ := asked_bind_ok.1 k2
  rw [pure_eq, asked_done] at k3
  obtain ⟨rfl, k3⟩ := k3
  simp only [Except.ok.injEq, Prod.mk.injEq] at k3
  obtain ⟨rfl, rfl⟩ := k3
  rcases asked_fetch h0 with ⟨_, _, -, hf⟩ | ⟨b0, b1, e0, -, hd⟩
  · cases hf
  subst e0
  obtain ⟨x, hx, hx'⟩ := bind_inv hd.symm
  cases x with
  | error msg => cases hx'
  | ok op' =>
    cases hx'
    obtain ⟨hv, henc⟩ := C40_encode_decode _ _ _ hx
    obtain ⟨rs, e1, hr1, hr2⟩ := asked_follows (follows_generate c who op) h1
    subst e1
    obtain ⟨ws, -, -, hok⟩ := asked_executeAll e.iterAt _ c who _ _ h2
    obtain ⟨c', vs, rfl, hvs, rfl, hF⟩ := hok _ rfl
    refine ⟨op, b0, b1, rs, hv, henc, all_of_ask hr1 hr2, ⟨vs, by simp [readCalls, word]⟩, fun vs' hvs' => ?_⟩
    unfold Live.next
    refine asked_bind_ok.2 ⟨_, readCalls who rs ++
      putCalls who (byteStores (m ++ [.Inc16bitRegister .ProgramCounter 2])) vs', op, ?_, h0, ?_⟩
    · simp [readCalls, word]
    · refine asked_bind_ok.2 ⟨_, _, m, rfl, h1, ?_⟩
      exact asked_bind_ok.2 ⟨_, [], _, (List.append_nil _).symm, asked_executeAll_any _ _ h2 vs' hvs',
        asked_done.2 ⟨rfl, rfl⟩⟩

/-- What an instruction does on memory, it does with the calls for the bytes of that memory. -/
theorem forward {c : Chip8 Unit R} {m : Mem} {mcs : List Microcode} {c' : Chip8 FlatRam R}
    (h : next b e (onBus c (⟨m⟩ : FlatRam)) = .ok (mcs, c')) {op : Opcode} (hop : Valid op)
    (henc : encode op = (m c.pc).toNat * 256 + (m (word (c.pc.toNat + 1))).toNat) (who : Copy) :
    ∃ reads, reads.map Prod.fst = c.pc :: word (c.pc.toNat + 1) :: cellsFrom c.i (readCount op) ∧
      (∀ p ∈ reads, p.2 = m p.1) ∧
      ∀ vs, vs.length = (byteStores mcs).length →
        Asked (Live.next b e (onBus c who)) (readCalls who reads ++ putCalls who (byteStores mcs) vs)
          (.ok (mcs, onBus c' who)) := by
  have he := (exec_next (b := b) (e := e) c who (⟨m⟩ : FlatRam)
    (⟨⟨⟨m⟩⟩, ⟨⟨m⟩⟩, ()⟩ : Site Unit (Value FlatRam)) (by cases who <;> rfl)).1 mcs c' h
  obtain ⟨l, h1, h2⟩ := exec_ok_iff.1 he
  obtain ⟨op', b0, b1, rs, hv', henc', hrs, ⟨vs, rfl⟩, hany⟩ := asked_next_any h1
  have hm := Mos.answers_flat (m := m) (by cases who <;> rfl) h2
  have e0 : b0 = m c.pc := hm (c.pc, b0) (by simp)
  have e1 : b1 = m (word (c.pc.toNat + 1)) := hm (word (c.pc.toNat + 1), b1) (by simp)
  have eop : op = op' := by
    have a1 := C40_decode_encode op hop b0 b1 (by rw [e0, e1]; exact henc.symm)
    rw [C40_decode_encode op' hv' b0 b1 henc'.symm] at a1
    cases a1
    rfl
  subst eop
  exact ⟨_, by simp only [List.map_cons, hrs], hm, hany⟩

/-- What the iterator has executed, the fold executes with the same calls. -/
theorem forward_fold {c : Chip8 Unit R} {m : Mem} {mcs : List Microcode} {c' : Chip8 FlatRam R}
    (h : next b e (onBus c (⟨m⟩ : FlatRam)) = .ok (mcs, c')) (hclock : e.iterAt = e.foldAt) (who : Copy)
    (vs : List Byte) (hvs : vs.length = (byteStores mcs).length) :
    Asked (Live.executeAll b e.foldAt (onBus c who) mcs) (putCalls who (byteStores mcs) vs)
      (.ok (onBus c' who)) := by
  have hx : executeAll b e.foldAt (onBus c (⟨m⟩ : FlatRam)) mcs = .ok c' := by
    unfold next at h
    obtain ⟨op, -, h⟩ := bind_inv h
    obtain ⟨ms, -, h⟩ := bind_inv h
    obtain ⟨c₁, hx, h⟩ := bind_inv h
    cases h
    rw [← hclock]
    exact hx
  have he := (exec_executeAll (b := b) e.foldAt mcs c who (⟨m⟩ : FlatRam)
    (⟨⟨⟨m⟩⟩, ⟨⟨m⟩⟩, ()⟩ : Site Unit (Value FlatRam)) (by cases who <;> rfl)).1 c' hx
  obtain ⟨l, h1, -⟩ := exec_ok_iff.1 he
  exact asked_executeAll_any _ _ h1 vs hvs

section
variable {W : Type} [Wire W]

/-- One instruction of `run`. -/
theorem console_step {env : Nat → Env} {k : Nat} (hclock : (env k).iterAt = (env k).foldAt) {c : Chip8 Unit R}
    {d : Console} {w : W} {mcs : List Microcode} {c' : Chip8 FlatRam R} {op : Opcode} {j : Nat}
    (h : next b (env k) (onBus c (⟨d.seen w⟩ : FlatRam)) = .ok (mcs, c')) (hop : Valid op)
    (henc : encode op = (d.seen w c.pc).toNat * 256 + (d.seen w (word (c.pc.toNat + 1))).toNat)
    (hj : (c.pc :: word (c.pc.toNat + 1) :: cellsFrom c.i (readCount op)).count d.inp = j) (hj1 : j ≤ 1) (n : Nat) :
    exec b (Live.runLoop b env (n + 1) k (onBus c .iterator) (onBus c .own)) (atStart d w) =
      exec b (Live.runLoop b env n (k + 1) (onBus (onBus c' ()) .iterator) (onBus (onBus c' ()) .own))
        (atStart (d.keep (byteStores mcs))
          (gives (takes j w) (List.replicate 2 (shownAt d.outp (byteStores mcs))).flatten)) := by
  obtain ⟨reads, hr, hm, hany⟩ := forward h hop henc .iterator
  rw [← hr] at hj
  subst hj
  have hnext : exec b (Live.next b (env k) (onBus c .iterator)) (atStart d w) =
      (.ok (mcs, onBus c' .iterator),
        (atStart d (takes ((reads.map Prod.fst).count d.inp) w)).update .iterator (d.keep (byteStores mcs))
          (gives (takes ((reads.map Prod.fst).count d.inp) w) (shownAt d.outp (byteStores mcs)))) :=
    exec_ok_iff.2 ⟨_, hany _ (by simp), answers_append.2 ⟨_, Mos.answers_reads hm hj1, Mos.answers_puts .iterator rfl⟩⟩
  have hex : ∀ s : Site W Console, s.own = d →
      exec b (Live.executeAll b (env k).foldAt (onBus c .own) mcs) s =
      (.ok (onBus c' .own), s.update .own (d.keep (byteStores mcs))
        (gives s.world (shownAt d.outp (byteStores mcs)))) := fun s hs =>
    exec_ok_iff.2 ⟨_, forward_fold h hclock .own ((byteStores mcs).map Prod.snd) (by simp), Mos.answers_puts .own hs⟩
  rw [Live.runLoop, exec_bind, hnext]
  simp only
  rw [exec_bind, hex _ rfl]
  simp only
  have e1 : ∀ who : Copy, onBus (onBus c' ()) who = onBus c' who := fun _ => rfl
  rw [e1, e1]
  congr 1
  simp [atStart, Site.update, gives, List.replicate]

end

end Verif.Chip8
