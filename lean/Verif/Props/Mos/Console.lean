import Verif.Proofs.Console
import Verif.Props.LiveSplit
import Verif.Props.Mos.Checksum
import Verif.Props.Mos.Relocate

/-!
# Property C138: programs that talk to other devices
-/

namespace Verif.Props

open Verif Verif.Mos Verif.Spec Verif.Spec.Mos Verif.Spec.Live Verif.Live Verif.Live.Bus

variable {b : Build}

/-- What one expects: a run of as many cycles as a number of instructions takes does to registers, memory and
what is behind the ports what these instructions say, each byte being taken and given once. -/
def C138_statement : Prop :=
  ∀ (b : Build) (W : Type) [Wire W] (m : Nat) (r r' : Regs) (d d' : Console) (w w' : W),
    Talks b 1 m (r, d, w) (r', d', w') →
    exec b (Mos.Live.run b (withRegs r .own) m) (atStart d w) = (.ok (.ready (withRegs r' .own)), atStart d' w')

section
variable {W : Type} [Wire W]

theorem talks_loop {n : Nat} {x y : Regs × Console × W} {m : Nat} (h : Talks b 2 m x y) :
    exec b (Mos.Live.runLoop b (m + n) (withRegs x.1 .iterator) [] (withRegs x.1 .own)) (atStart x.2.1 x.2.2) =
      exec b (Mos.Live.runLoop b n (withRegs y.1 .iterator) [] (withRegs y.1 .own)) (atStart y.2.1 y.2.2) := by
  induction h with
  | stop x => rw [Nat.zero_add]
  | step hn hi hm hk hk1 _ ih =>
    rw [Nat.add_assoc, console_step hn hi hm hk hk1]
    exact ih

/-- What holds, whatever is behind the ports: registers and memory are as expected, every byte is taken once,
but what an instruction gives, it gives twice. Afterwards the run goes on from there. -/
theorem C138_partial {m : Nat} {r r' : Regs} {d d' : Console} {w w' : W}
    (h : Talks b 2 m (r, d, w) (r', d', w')) :
    exec b (Mos.Live.run b (withRegs r .own) m) (atStart d w) =
      (.ok (.ready (withRegs r' .own)), atStart d' w') ∧
    ∀ n, exec b (Mos.Live.run b (withRegs r .own) (m + n)) (atStart d w) =
      exec b (Mos.Live.run b (withRegs r' .own) n) (atStart d' w') := by
  have key : ∀ n, exec b (Mos.Live.run b (withRegs r .own) (m + n)) (atStart d w) =
      exec b (Mos.Live.run b (withRegs r' .own) n) (atStart d' w') := by
    intro n
    rw [run_exec, run_exec]
    have := talks_loop (n := n) h
    simp only at this
    rw [show ({ withRegs r Copy.own with address_map := .iterator } : Mos6502 Copy) = withRegs r .iterator from rfl,
      show ({ withRegs r' Copy.own with address_map := .iterator } : Mos6502 Copy) = withRegs r' .iterator from rfl,
      this]
  exact ⟨(key 0).trans rfl, key⟩

/-- Where giving the same bytes again changes nothing, as with a lamp that shows the last byte given, the
expected holds. -/
theorem C138_once_partial (hw : ∀ (w : W) (vs : List Byte), gives w (vs ++ vs) = gives w vs) {m : Nat}
    {r r' : Regs} {d d' : Console} {w w' : W} (h : Talks b 1 m (r, d, w) (r', d', w')) :
    exec b (Mos.Live.run b (withRegs r .own) m) (atStart d w) =
      (.ok (.ready (withRegs r' .own)), atStart d' w') := by
  have key : ∀ {m : Nat} {x y : Regs × Console × W}, Talks b 1 m x y → Talks b 2 m x y := by
    intro m x y h
    induction h with
    | stop x => exact .stop x
    | step hn hi hm hk hk1 _ ih =>
      refine .step hn hi hm hk hk1 ?_
      have e : ∀ (w : W) (vs : List Byte), gives w (List.replicate 2 vs).flatten =
          gives w (List.replicate 1 vs).flatten := by
        intro w vs
        have := hw w vs
        simpa [List.replicate] using this
      rw [e]
      exact ih
  exact (C138_partial (key h)).1

end

/-! ## Programs -/

section
variable {W : Type} [Wire W] {d : Console} {w : W}

theorem seen_ne {a : Word} (h : a ≠ d.inp) : d.seen w a = d.mem a := by
  simp [Console.seen, upd, h]

/-- One instruction that does not read its own bytes from the port. -/
theorem talk_one {n m q : Nat} {s : Regs} {z : Regs × Console × W} (i : InstructionVariant) {mn : Mnemonic}
    {am : AddrMode} {rs : List (Word × Byte)} (hpc : s.pc = word q) (hq : q < 65534)
    (h0 : word q ≠ d.inp) (h1 : word (q + 1) ≠ d.inp) (h2 : word (q + 2) ≠ d.inp)
    (hp : Isa.parseInstruction (d.mem (word q)) (d.mem (word q + 1)) (d.mem (word q + 2)) = some i)
    (hi : view i = (mn, am)) (hok : AddrOk b s (d.seen w) am) (hc : Complete (nextRead s mn am) rs)
    (hrs : ∀ p ∈ rs, p.2 = d.seen w p.1) {k : Nat} (hk : (rs.map Prod.fst).count d.inp = k) (hk1 : k ≤ 1)
    {e : Effect} (he : codeEffect s (d.seen w) mn am = e) {c : Nat}
    (hcy : baseCycles mn am + codePenalty s (d.seen w) mn am = c)
    (h : Talks b n m (e.regs, d.keep e.writes,
      gives (takes k w) (List.replicate n (shownAt d.outp e.writes)).flatten) z) :
    Talks b n (c + m) (s, d, w) z := by
  have e1 : word q + 1 = word (q + 1) := word_add q 1
  have e2 : word q + 2 = word (q + 2) := word_add q 2
  have hp' : Isa.parseInstruction (d.seen w s.pc) (d.seen w (s.pc + 1)) (d.seen w (s.pc + 2)) = some i := by
    rw [hpc, seen_ne h0, seen_ne (by rw [e1]; exact h1), seen_ne (by rw [e2]; exact h2)]
    exact hp
  have hpc' : s.pc.toNat = q := by rw [hpc, toNat_word_lt q (by omega)]
  obtain ⟨hat, ops, hs⟩ := flat_step (b := b) (r := s) (mem := d.seen w) (by omega) hp' (by rw [hi]; exact hok)
  have hops : ops = code s (d.seen w) mn am := by
    have := step_ok (mem := d.seen w) hat (fun _ => rfl) (by rw [hi]; exact hok)
    rw [hs] at this
    cases hx : writeAll b (withRegs s (⟨d.seen w⟩ : FlatRam)).address_map
        (codeEffect (regs (withRegs s (⟨d.seen w⟩ : FlatRam))) (d.seen w) (view i).1 (view i).2).writes with
    | error p => rw [hx] at this; cases this
    | ok bus =>
      rw [hx, hi] at this
      simp only [Except.map, Except.ok.injEq, Prod.mk.injEq] at this
      exact this.1
  have hcyc : ops.cycles = c := by rw [hops]; exact hcy
  have hst : storesOf ops = e.writes := by rw [hops, stores_code, he]
  rw [hi] at hs
  simp only at hs
  rw [he] at hs
  rw [← hcyc]
  refine .step (i := i) (reads := (s.pc, d.seen w s.pc) :: (word (s.pc.toNat + 1), d.seen w (word (s.pc.toNat + 1))) ::
    (word (s.pc.toNat + 2), d.seen w (word (s.pc.toNat + 2))) :: rs) hs ?_ ?_ ?_ hk1 ?_
  · refine ⟨_, _, _, rs, ?_, by rw [hi]; exact hc, rfl⟩
    have a1 : word (s.pc.toNat + 1) = s.pc + 1 := by rw [hpc', hpc, e1]
    have a2 : word (s.pc.toNat + 2) = s.pc + 2 := by rw [hpc', hpc, e2]
    rw [a1, a2]
    exact hp'
  · intro p hp
    simp only [List.mem_cons] at hp
    rcases hp with rfl | rfl | rfl | hp
    · rfl
    · rfl
    · rfl
    · exact hrs p hp
  · rw [hpc', hpc]
    simp only [List.map_cons]
    rw [List.count_cons_of_ne h0, List.count_cons_of_ne h1, List.count_cons_of_ne h2]
    exact hk
  · rw [hst]
    exact h

/-- One instruction that stores nothing. -/
theorem talk_quiet {n m q : Nat} {s s' : Regs} {z : Regs × Console × W} (i : InstructionVariant) {mn : Mnemonic}
    {am : AddrMode} {rs : List (Word × Byte)} (hpc : s.pc = word q) (hq : q < 65534)
    (h0 : word q ≠ d.inp) (h1 : word (q + 1) ≠ d.inp) (h2 : word (q + 2) ≠ d.inp)
    (hp : Isa.parseInstruction (d.mem (word q)) (d.mem (word q + 1)) (d.mem (word q + 2)) = some i)
    (hi : view i = (mn, am)) (hok : AddrOk b s (d.seen w) am) (hc : Complete (nextRead s mn am) rs)
    (hrs : ∀ p ∈ rs, p.2 = d.seen w p.1) {k : Nat} (hk : (rs.map Prod.fst).count d.inp = k) (hk1 : k ≤ 1)
    (he : codeEffect s (d.seen w) mn am = { regs := s' }) {c : Nat}
    (hcy : baseCycles mn am + codePenalty s (d.seen w) mn am = c)
    (h : Talks b n m (s', d, takes k w) z) : Talks b n (c + m) (s, d, w) z := by
  refine talk_one i hpc hq h0 h1 h2 hp hi hok hc hrs hk hk1 he hcy ?_
  have e1 : d.keep [] = d := rfl
  have e2 : gives (takes k w) (List.replicate n (shownAt d.outp [])).flatten = takes k w := by
    simp [shownAt, gives]
  simp only [e1, e2]
  exact h

/-- The read of an instruction that asks for one byte. -/
theorem complete_one {mn : Mnemonic} {a : Word} {v : Byte} (h : usesOperand mn = true) :
    Complete (direct mn a) [(a, v)] := by
  rw [complete_cons, complete_nil]
  simp [direct, h]

/-- One round of the filter. -/
theorem filter_round {n m p t : Nat} {s : Regs} {z : Regs × Console × W} (hp : p + 12 < 65534) (ht : t < 256)
    (hcode : CodeAt d.mem p (filter p t d.inp d.outp)) (hfree : ∀ k < 15, word (p + k) ≠ d.inp)
    (htab : ∀ v : Byte, word (256 * t + v.toNat) ≠ d.inp) (hpc : s.pc = word p) {v : Byte}
    (hv : tableAt d.mem (256 * t) (s.y ^^^ (Wire.take w).1) = v)
    (h : Talks b n m ({ s with a := v, x := s.y ^^^ (Wire.take w).1, y := v, p := setNZ s.p v, pc := word p }, d,
      gives (Wire.take w).2 (List.replicate n v)) z) :
    Talks b n (21 + m) (s, d, w) z := by
  obtain ⟨c1, hcode⟩ := codeAt_append hcode
  obtain ⟨c2, hcode⟩ := codeAt_append hcode
  obtain ⟨c3, hcode⟩ := codeAt_append hcode
  obtain ⟨c4, hcode⟩ := codeAt_append hcode
  obtain ⟨c5, hcode⟩ := codeAt_append hcode
  obtain ⟨c6, c7⟩ := codeAt_append hcode
  simp only [List.length_cons, List.length_nil, Nat.add_assoc, Nat.reduceAdd] at c2 c3 c4 c5 c6 c7
  have o1 : d.mem (word p) = 0x98 := c1 0 (by simp)
  have o3 : d.mem (word (p + 4)) = 0xaa := c3 0 (by simp)
  have o5 : d.mem (word (p + 8)) = 0xa8 := c5 0 (by simp)
  obtain ⟨o2, l2, u2⟩ := code3 c2
  obtain ⟨o4, l4, u4⟩ := code3 c4
  obtain ⟨o6, l6, u6⟩ := code3 c6
  obtain ⟨o7, l7, u7⟩ := code3 c7
  have f : ∀ j k, j + k < 15 → word (p + j + k) ≠ d.inp := fun j k hk => by
    rw [Nat.add_assoc]; exact hfree _ hk
  have winp : word d.inp.toNat = d.inp := by simp [word]
  have wout : word d.outp.toNat = d.outp := by simp [word]
  -- TYA
  have e : 21 + m = 2 + (4 + (2 + (4 + (2 + (4 + (3 + m)))))) := by omega
  rw [e]
  refine talk_quiet (s' := { s with a := s.y, p := setNZ s.p s.y, pc := word (p + 1) }) (rs := []) (k := 0)
    .TyaImplied (am := .implied) (mn := .Tya) hpc (by omega) (f 0 0 (by omega)) (f 0 1 (by omega))
    (f 0 2 (by omega)) (by rw [o1]; rfl) rfl trivial (complete_nil.2 rfl) (by simp) rfl (by omega) (by
      show ({ regs := { s with a := s.y, p := setNZ s.p s.y, pc := nextPc s .implied } } : Effect) = _
      rw [nextPc_of hpc (by omega)]; rfl) rfl ?_
  -- EOR inp
  have hin : d.seen w d.inp = (Wire.take w).1 := by simp [Console.seen, upd]
  generalize hg : s.y ^^^ (Wire.take w).1 = x at hv h ⊢
  refine talk_quiet (s' := { s with a := x, p := setNZ s.p x, pc := word (p + 4) }) (k := 1)
    (rs := [(d.inp, d.seen w d.inp)])
    (.EorAbsolute d.inp) (am := .absolute d.inp) (mn := .Eor) (q := p + 1) rfl (by omega) (f 1 0 (by omega))
    (f 1 1 (by omega)) (f 1 2 (by omega))
    (by rw [o2, l2, u2]
        show some (InstructionVariant.EorAbsolute _) = _
        rw [word_lohi, winp]) rfl trivial (complete_one rfl)
    (fun q hq => by simp only [List.mem_singleton] at hq; subst hq; rfl) (by simp) (by omega) (by
      show ({ regs := { s with
        a := s.y ^^^ d.seen w d.inp, p := setNZ s.p (s.y ^^^ d.seen w d.inp)
        pc := nextPc { s with pc := word (p + 1) } (.absolute d.inp) } } : Effect) = _
      rw [nextPc_of rfl (by omega), hin, hg]; rfl) rfl ?_
  -- TAX
  refine talk_quiet (s' := { s with a := x, x := x, p := setNZ s.p x, pc := word (p + 5) }) (rs := []) (k := 0)
    .TaxImplied (am := .implied) (mn := .Tax) (q := p + 4) rfl (by omega) (f 4 0 (by omega)) (f 4 1 (by omega))
    (f 4 2 (by omega)) (by rw [o3]; rfl) rfl trivial (complete_nil.2 rfl) (by simp) rfl (by omega) (by
      show ({ regs := { s with
        a := x, x := x, p := setNZ s.p x, pc := nextPc { s with pc := word (p + 4) } .implied } } : Effect) = _
      rw [nextPc_of rfl (by omega)]; rfl) rfl ?_
  -- LDA table,X
  have ht' : word ((word (256 * t)).toNat + x.toNat) = word (256 * t + x.toNat) := word_indexed _ _
  have hlt := x.isLt
  have hseen : d.seen (Wire.take w).2 (word (256 * t + x.toNat)) = v := by
    rw [seen_ne (htab x)]; exact hv
  refine talk_quiet (s' := { s with a := v, x := x, p := setNZ s.p v, pc := word (p + 8) }) (k := 0)
    (w := (Wire.take w).2)
    (rs := [(word (256 * t + x.toNat), v)])
    (.LdaAbsoluteIndexedWithX (word (256 * t))) (am := .absoluteX (word (256 * t))) (mn := .Lda) (q := p + 5) rfl
    (by omega) (f 5 0 (by omega)) (f 5 1 (by omega)) (f 5 2 (by omega))
    (by rw [o4, l4, u4]
        show some (InstructionVariant.LdaAbsoluteIndexedWithX _) = _
        have := word_lohi (256 * t)
        have e1 : byte (256 * t) = 0 := by apply BitVec.eq_of_toNat_eq; rw [toNat_byte]; simp
        have e2 : 256 * t / 256 = t := by omega
        rw [e1, e2] at this
        rw [this]) rfl trivial (by
      have := complete_one (mn := .Lda) (a := word ((word (256 * t)).toNat + x.toNat)) (v := v) rfl
      rw [ht'] at this
      exact (by
        show Complete (direct .Lda (word ((word (256 * t)).toNat + x.toNat))) _
        rw [ht']; exact this))
    (fun q hq => by simp only [List.mem_singleton] at hq; subst hq; exact hseen.symm)
    (by simp only [List.map_cons, List.map_nil]; rw [List.count_cons_of_ne (htab x)]; rfl) (by omega) (by
      show ({ regs := { s with
        a := d.seen (Wire.take w).2 (word ((word (256 * t)).toNat + x.toNat)), x := x
        p := setNZ s.p (d.seen (Wire.take w).2 (word ((word (256 * t)).toNat + x.toNat)))
        pc := nextPc { s with pc := word (p + 5) } (.absoluteX (word (256 * t))) } } : Effect) = _
      rw [nextPc_of rfl (by omega), ht', hseen]; rfl) (by
      show 4 + crosses (word (256 * t)).toNat (word ((word (256 * t)).toNat + x.toNat)).toNat = 4
      have e1 : (word (256 * t)).toNat = 256 * t := toNat_word_lt _ (by omega)
      rw [e1, toNat_word_lt _ (by omega)]
      unfold crosses
      rw [if_pos (by omega)]) ?_
  -- TAY
  refine talk_quiet (s' := { s with a := v, x := x, y := v, p := setNZ s.p v, pc := word (p + 9) }) (rs := [])
    (k := 0)
    .TayImplied (am := .implied) (mn := .Tay) (q := p + 8) rfl (by omega) (f 8 0 (by omega)) (f 8 1 (by omega))
    (f 8 2 (by omega)) (by rw [o5]; rfl) rfl trivial (complete_nil.2 rfl) (by simp) rfl (by omega) (by
      show ({ regs := { s with
        a := v, x := x, y := v, p := setNZ s.p v, pc := nextPc { s with pc := word (p + 8) } .implied } } : Effect) = _
      rw [nextPc_of rfl (by omega)]; rfl) rfl ?_
  -- STA outp
  refine talk_one (e := { regs := { s with a := v, x := x, y := v, p := setNZ s.p v, pc := word (p + 12) }
                          writes := [(d.outp, v)] }) (rs := []) (k := 0)
    (.StaAbsolute d.outp) (am := .absolute d.outp) (mn := .Sta) (q := p + 9) rfl (by omega) (f 9 0 (by omega))
    (f 9 1 (by omega)) (f 9 2 (by omega))
    (by rw [o6, l6, u6]
        show some (InstructionVariant.StaAbsolute _) = _
        rw [word_lohi, wout]) rfl trivial (complete_nil.2 rfl) (by simp) rfl (by omega) (by
      show ({ regs := { s with
        a := v, x := x, y := v, p := setNZ s.p v
        pc := nextPc { s with pc := word (p + 9) } (.absolute d.outp) }, writes := [(d.outp, v)] } : Effect) = _
      rw [nextPc_of rfl (by omega)]; rfl) rfl ?_
  have k1 : d.keep [(d.outp, v)] = d := by simp [Console.keep, store]
  have k2 : (List.replicate n (shownAt d.outp [(d.outp, v)])).flatten = List.replicate n v := by
    have : shownAt d.outp [(d.outp, v)] = [v] := by simp [shownAt]
    rw [this]
    exact List.flatten_replicate_singleton
  simp only [k1, k2]
  -- JMP
  refine talk_quiet (s' := { s with a := v, x := x, y := v, p := setNZ s.p v, pc := word p }) (rs := []) (k := 0)
    (.JmpAbsolute (word p)) (am := .absolute (word p)) (mn := .Jmp) (q := p + 12) rfl (by omega) (f 12 0 (by omega))
    (f 12 1 (by omega)) (f 12 2 (by omega))
    (by rw [o7, l7, u7]
        show some (InstructionVariant.JmpAbsolute _) = _
        rw [word_lohi]) rfl trivial (complete_nil.2 rfl) (by simp) rfl (by omega) rfl rfl ?_
  exact h

end

section
variable {p t : Nat} {inp outp : Word} {mem : Mem} {s : Regs}

/-- The filter on a line, each byte given `n` times. -/
theorem filter_talks {n : Nat} (hp : p + 12 < 65534) (ht : t < 256) (hcode : CodeAt mem p (filter p t inp outp))
    (hfree : ∀ k < 15, word (p + k) ≠ inp) (htab : ∀ v : Byte, word (256 * t + v.toNat) ≠ inp) (hpc : s.pc = word p)
    (xs rest out : List Byte) :
    ∃ s', Talks b n (21 * xs.length) (s, (⟨mem, inp, outp⟩ : Console), (⟨xs ++ rest, out⟩ : Line))
        (s', ⟨mem, inp, outp⟩,
          ⟨rest, out ++ (running (tableAt mem (256 * t)) s.y xs).flatMap (List.replicate n)⟩) ∧
      s'.y = checksum (tableAt mem (256 * t)) s.y xs ∧ s'.sp = s.sp ∧ s'.pc = word p := by
  induction xs generalizing s out with
  | nil =>
    refine ⟨s, ?_, rfl, rfl, hpc⟩
    simp only [running, List.flatMap_nil, List.append_nil, List.nil_append, List.length_nil, Nat.mul_zero]
    exact .stop _
  | cons x xs ih =>
    obtain ⟨s', h1, h2, h3, h4⟩ := ih (s := { s with
      a := tableAt mem (256 * t) (s.y ^^^ x), x := s.y ^^^ x, y := tableAt mem (256 * t) (s.y ^^^ x)
      p := setNZ s.p (tableAt mem (256 * t) (s.y ^^^ x)), pc := word p }) (out := out ++
        List.replicate n (tableAt mem (256 * t) (s.y ^^^ x))) rfl
    refine ⟨s', ?_, h2, h3, h4⟩
    have e : 21 * (x :: xs).length = 21 + 21 * xs.length := by simp only [List.length_cons]; omega
    rw [e]
    refine filter_round (d := ⟨mem, inp, outp⟩) hp ht hcode hfree htab hpc rfl ?_
    have g : ∀ (vs : List Byte) (w : Line), gives w vs = { w with output := w.output ++ vs } := by
      intro vs
      induction vs with
      | nil => intro w; simp [gives]
      | cons v vs ih =>
        intro w
        have : gives w (v :: vs) = gives (Wire.give w v) vs := rfl
        rw [this, ih]
        simp [Wire.give]
    rw [g]
    simp only [running, List.flatMap_cons, ← List.append_assoc]
    exact h1

/-- A program that takes bytes from a line and gives the checksum of what it has taken so far, for every table,
every place in memory, every starting value and every number of bytes, with the line in any state: after 21 cycles
for each byte, exactly these bytes are taken, every checksum has been printed twice, memory is as it was, and the
machine is ready to go on. -/
theorem C138_filter_partial (hp : p + 12 < 65534) (ht : t < 256) (hcode : CodeAt mem p (filter p t inp outp))
    (hfree : ∀ k < 15, word (p + k) ≠ inp) (htab : ∀ v : Byte, word (256 * t + v.toNat) ≠ inp) (hpc : s.pc = word p)
    (xs rest out : List Byte) :
    ∃ s', exec b (Mos.Live.run b (withRegs s .own) (21 * xs.length))
        (atStart (⟨mem, inp, outp⟩ : Console) (⟨xs ++ rest, out⟩ : Line)) =
        (.ok (.ready (withRegs s' .own)), atStart ⟨mem, inp, outp⟩
          ⟨rest, out ++ (running (tableAt mem (256 * t)) s.y xs).flatMap fun v => [v, v]⟩) ∧
      s'.y = checksum (tableAt mem (256 * t)) s.y xs ∧ s'.sp = s.sp ∧ s'.pc = word p := by
  obtain ⟨s', h1, h2⟩ := filter_talks (b := b) (n := 2) hp ht hcode hfree htab hpc xs rest out
  exact ⟨s', (C138_partial h1).1, h2⟩

end

/-! ## A lamp -/

section
variable {p t : Nat} {inp outp : Word} {mem : Mem} {s : Regs}

/-- The same program with a lamp, where the code does the expected: after 21 cycles for each byte the lamp shows
the checksum of all bytes taken. With the table of a CRC of eight bits this is the CRC of the message. -/
theorem C138_lamp_partial (hp : p + 12 < 65534) (ht : t < 256) (hcode : CodeAt mem p (filter p t inp outp))
    (hfree : ∀ k < 15, word (p + k) ≠ inp) (htab : ∀ v : Byte, word (256 * t + v.toNat) ≠ inp) (hpc : s.pc = word p)
    (x : Byte) (xs rest : List Byte) (l : Byte) {poly : Byte} (hpoly : ∀ v, tableAt mem (256 * t) v = crcTable poly v) :
    ∃ s', exec b (Mos.Live.run b (withRegs s .own) (21 * (x :: xs).length))
        (atStart (⟨mem, inp, outp⟩ : Console) (⟨(x :: xs) ++ rest, l⟩ : Lamp)) =
        (.ok (.ready (withRegs s' .own)), atStart ⟨mem, inp, outp⟩
          ⟨rest, crcBits poly s.y ((x :: xs).flatMap bitsOf)⟩) := by
  rw [crc_checksum, ← show tableAt mem (256 * t) = crcTable poly from funext hpoly]
  have key : ∀ (xs : List Byte) (s : Regs) (x l : Byte), s.pc = word p →
      ∃ s', Talks b 1 (21 * (x :: xs).length) (s, (⟨mem, inp, outp⟩ : Console), (⟨(x :: xs) ++ rest, l⟩ : Lamp))
        (s', ⟨mem, inp, outp⟩, ⟨rest, checksum (tableAt mem (256 * t)) s.y (x :: xs)⟩) := by
    intro xs
    induction xs with
    | nil =>
      intro s x l hpc
      refine ⟨{ s with
        a := tableAt mem (256 * t) (s.y ^^^ x), x := s.y ^^^ x, y := tableAt mem (256 * t) (s.y ^^^ x)
        p := setNZ s.p (tableAt mem (256 * t) (s.y ^^^ x)), pc := word p },
        filter_round (m := 0) (d := ⟨mem, inp, outp⟩) hp ht hcode hfree htab hpc rfl ?_⟩
      exact .stop _
    | cons x' xs ih =>
      intro s x l hpc
      obtain ⟨s', h⟩ := ih { s with
        a := tableAt mem (256 * t) (s.y ^^^ x), x := s.y ^^^ x, y := tableAt mem (256 * t) (s.y ^^^ x)
        p := setNZ s.p (tableAt mem (256 * t) (s.y ^^^ x)), pc := word p } x' (tableAt mem (256 * t) (s.y ^^^ x)) rfl
      refine ⟨s', ?_⟩
      have e : 21 * (x :: x' :: xs).length = 21 + 21 * (x' :: xs).length := by simp only [List.length_cons]; omega
      rw [e]
      exact filter_round (d := ⟨mem, inp, outp⟩) hp ht hcode hfree htab hpc rfl h
  obtain ⟨s', h⟩ := key xs s x l hpc
  exact ⟨s', C138_once_partial lamp_again h⟩

end

/-! ## Concrete cases -/

/-- The filter at 0x200 with the ports 0xd010 and 0xd012 and the table, at 0x400, of the CRC-8 with the polynomial
x^8 + x^2 + x + 1. -/
def filterRam : Mem := loaded 0x200 (filter 0x200 4 0xd010 0xd012) fun a => crcTable 7 (byte (a.toNat - 0x400))

theorem filterRam_code : CodeAt filterRam 0x200 (filter 0x200 4 0xd010 0xd012) := loaded_code (by decide)

theorem filterRam_free : ∀ k < 15, word (0x200 + k) ≠ (0xd010 : Word) := by decide

theorem filterRam_table : (∀ v : Byte, word (256 * 4 + v.toNat) ≠ (0xd010 : Word)) ∧
    ∀ v, tableAt filterRam (256 * 4) v = crcTable 7 v := by decide +kernel

/-- The hypotheses of `C138_filter_partial`: on "123" the checksums are 0x97, 0x72 and 0xc0, each printed
twice. -/
example (rest out : List Byte) : ∃ s', exec .debug
    (Mos.Live.run .debug (withRegs { sampleRegs with y := 0, pc := word 0x200 } .own) 63)
    (atStart (⟨filterRam, 0xd010, 0xd012⟩ : Console) (⟨[0x31, 0x32, 0x33] ++ rest, out⟩ : Line)) =
    (.ok (.ready (withRegs s' .own)), atStart ⟨filterRam, 0xd010, 0xd012⟩
      ⟨rest, out ++ [0x97, 0x97, 0x72, 0x72, 0xc0, 0xc0]⟩) := by
  obtain ⟨s', h, -⟩ := C138_filter_partial (b := .debug) (s := { sampleRegs with y := 0, pc := word 0x200 })
    (by decide) (by decide) filterRam_code filterRam_free filterRam_table.1 rfl [0x31, 0x32, 0x33] rest out
  have e : (running (tableAt filterRam (256 * 4)) 0 [0x31, 0x32, 0x33]).flatMap (fun v => [v, v]) =
      [0x97, 0x97, 0x72, 0x72, 0xc0, 0xc0] := by decide +kernel
  exact ⟨s', h.trans (by rw [← e])⟩

/-- The hypotheses of `C138_lamp_partial`: on "123456789" the lamp shows the check value of that CRC, 0xf4. -/
example (l : Byte) : ∃ s', exec .debug
    (Mos.Live.run .debug (withRegs { sampleRegs with y := 0, pc := word 0x200 } .own) 189)
    (atStart (⟨filterRam, 0xd010, 0xd012⟩ : Console)
      (⟨[0x31, 0x32, 0x33, 0x34, 0x35, 0x36, 0x37, 0x38, 0x39], l⟩ : Lamp)) =
    (.ok (.ready (withRegs s' .own)), atStart ⟨filterRam, 0xd010, 0xd012⟩ ⟨[], 0xf4⟩) := by
  obtain ⟨s', h⟩ := C138_lamp_partial (b := .debug) (s := { sampleRegs with y := 0, pc := word 0x200 })
    (by decide) (by decide) filterRam_code filterRam_free filterRam_table.1 rfl 0x31
    [0x32, 0x33, 0x34, 0x35, 0x36, 0x37, 0x38, 0x39] [] l filterRam_table.2
  have e : crcBits 7 0 ([0x31, 0x32, 0x33, 0x34, 0x35, 0x36, 0x37, 0x38, 0x39].flatMap bitsOf) = 0xf4 := by
    decide +kernel
  exact ⟨s', h.trans (by rw [← e])⟩

/-- The expected is false: the program above prints the checksum of one byte twice. -/
theorem C138_false : ¬ C138_statement := by
  intro h
  obtain ⟨s₁, h1, -⟩ := filter_talks (b := .debug) (n := 1) (s := { sampleRegs with y := 0, pc := word 0x200 })
    (by decide) (by decide) filterRam_code filterRam_free filterRam_table.1 rfl [0x31] [] []
  obtain ⟨s₂, h2, -⟩ := C138_filter_partial (b := .debug) (s := { sampleRegs with y := 0, pc := word 0x200 })
    (by decide) (by decide) filterRam_code filterRam_free filterRam_table.1 rfl [0x31] [] []
  have := h _ _ _ _ _ _ _ _ _ h1
  rw [h2] at this
  have := congrArg (fun q => q.2.world.output) this
  have e : ([] ++ (running (tableAt filterRam (256 * 4)) 0 [0x31]).flatMap fun v => [v, v]) ≠
      [] ++ (running (tableAt filterRam (256 * 4)) 0 [0x31]).flatMap (List.replicate 1) := by decide +kernel
  exact e this

end Verif.Props
