import Verif.Spec.Swap
import Verif.Props.Mos.Dead

/-!
# C141: pieces of code that do the same can be exchanged
-/

namespace Verif.Props

open Verif Verif.Mos Verif.Spec Verif.Spec.Mos

section
variable {B B' : Type} [Addressable B] [Addressable B'] {b : Build} {I : B → Mem → Prop}
  {I' : B' → Mem → Prop} {W R : Word → Prop} [DecidablePred R] {code code' : Mem} {p : Word}
  {c c1 c' : Mos6502 B} {e : Mos6502 B'} {mem mem' : Mem} {tr tr1 : List (Mos6502 B × InstructionVariant)}

theorem swap_mem_unique (hI : Coherent b I) {bus : B} {m n : Mem} (h : I bus m) (h' : I bus n) : m = n :=
  funext fun a => by
    have := (hI _ _ h).1 a
    rw [(hI _ _ h').1 a] at this
    exact (Except.ok.inj this).symm

theorem swap_append {tr2 : List (Mos6502 B × InstructionVariant)} (h : Executes b c tr c1)
    (h' : Executes b c1 tr2 c') : Executes b c (tr ++ tr2) c' := by
  induction h with
  | nil => exact h'
  | cons hs _ ih => exact .cons hs (ih h')

omit [DecidablePred R] in
/-- An execution that ends outside the piece begins with the way through it. -/
theorem swap_through (h1 : Executes b c tr1 c1) (hR : ∀ x ∈ tr1, R x.1.pc) (hx : Executes b c tr c')
    (hend : ¬R c'.pc) : ∃ tr2, tr = tr1 ++ tr2 ∧ Executes b c1 tr2 c' := by
  induction h1 generalizing tr with
  | nil => exact ⟨tr, rfl, hx⟩
  | @cons c d d' i tr1 hs _ ih =>
    cases hx with
    | nil => exact absurd (hR _ (List.mem_cons_self ..)) hend
    | @cons _ e' _ j tr2 hs' hx =>
      obtain ⟨hat, ops, hn⟩ := hs
      obtain ⟨hat', ops', hn'⟩ := hs'
      rw [hn] at hn'
      cases hn'
      have : i = j := by
        unfold At at hat hat'
        rw [hat] at hat'
        exact Except.ok.inj hat'
      subst this
      obtain ⟨tr3, rfl, h3⟩ := ih (fun x hx => hR x (List.mem_cons_of_mem _ hx)) hx
      exact ⟨tr3, rfl, h3⟩

omit [Addressable B] in
theorem outsidePiece_inside (h : ∀ x ∈ tr, R x.1.pc) : outsidePiece R tr = [] := by
  unfold outsidePiece
  rw [List.filter_eq_nil_iff.2]
  · rfl
  · intro x hx
    simp [h x hx]

omit [Addressable B] in
theorem outsidePiece_append (tr tr' : List (Mos6502 B × InstructionVariant)) :
    outsidePiece R (tr ++ tr') = outsidePiece R tr ++ outsidePiece R tr' := by
  simp [outsidePiece]

/-- C141: take two programs that differ in a piece only, at `p` in `R`, where the pieces do the same work. For
every execution of the one that ends outside the piece, and otherwise does not look at it, store into it or
jump into its middle, there is an execution of the other that executes the same instructions outside the piece
and ends in a state that differs in nothing but the piece. -/
theorem C141_swap (hI : Coherent b I) (hI' : Coherent b I') (hacc : AcceptsAt b I' W)
    (hw : SameWork b I I' R code code' p)
    (hm : I c.address_map mem) (hm' : I' e.address_map mem') (h : Agree (inPiece R) (regs c) (regs e) mem mem')
    (hc : HoldsPiece R code mem) (hc' : HoldsPiece R code' mem') (hpc : R c.pc → c.pc = p)
    (hx : Executes b c tr c') (hr : Respects b I W R p tr) (hend : ¬R c'.pc) :
    ∃ tr' e' m m', Executes b e tr' e' ∧ outsidePiece R tr' = outsidePiece R tr ∧ I c'.address_map m ∧
      I' e'.address_map m' ∧ Agree (inPiece R) (regs c') (regs e') m m' ∧ HoldsPiece R code m ∧
      HoldsPiece R code' m' := by
  induction hn : tr.length using Nat.strong_induction_on generalizing c e mem mem' tr with
  | _ n ih =>
  by_cases hin : R c.pc
  · obtain ⟨tr1, c1, tr1', e1, m, m', h1, h1', hR, hR', ho, a1, a2, a3, a4, a5⟩ :=
      hw c e mem mem' hm hm' (hpc hin) h hc hc'
    obtain ⟨tr2, rfl, h2⟩ := swap_through h1 hR hx hend
    have hlt : tr2.length < n := by
      rw [← hn, List.length_append]
      cases h1 with
      | nil => exact absurd hin ho
      | cons => simp
    obtain ⟨tr', e', m2, m2', g1, g2, g3⟩ := ih _ hlt a1 a2 a3 a4 a5 (fun hh => absurd hh ho) h2
      (fun x hx => hr x (List.mem_append_right _ hx)) rfl
    refine ⟨tr1' ++ tr', e', m2, m2', swap_append h1' g1, ?_, g3⟩
    rw [outsidePiece_append, outsidePiece_append, outsidePiece_inside hR, outsidePiece_inside hR', g2]
  · cases hx with
    | nil => exact ⟨[], e, mem, mem', .nil e, rfl, hm, hm', h, hc, hc'⟩
    | @cons _ c1 _ i tr2 hs hx =>
      obtain ⟨r1, r2, r3⟩ := hr (c, i) (List.mem_cons_self ..) hin mem hm
      obtain ⟨e1, m, m', q1, q2, q3, q4, q5⟩ :=
        C113_step hI hI' hacc hm hm' h r1 (fun a ha => (r2 a ha).2) hs.1 hs.2.choose_spec
      have hD : Agree (inPiece R) (regs c1) (regs e1) m m' :=
        ⟨q5.pc, fun q hq => q5.value q fun hh => hq hh.1⟩
      have hwr := (effect_used h.pc fun q hq => h.value q (r1 q hq)).2.1
      have k1 := step_mem hI hm hs
      have k2 := step_mem hI' hm' ⟨q1, _, q2⟩
      have hk : HoldsPiece R code m := by
        intro a ha
        rw [swap_mem_unique hI q3 k1.2, foldl_upd_other a _ _ (by
          rw [codeEffect_writes]; exact fun hh => (r2 a hh).1 ha)]
        exact hc a ha
      have hk' : HoldsPiece R code' m' := by
        intro a ha
        rw [swap_mem_unique hI' q4 k2.2, foldl_upd_other a _ _ (by
          rw [hwr, codeEffect_writes]; exact fun hh => (r2 a hh).1 ha)]
        exact hc' a ha
      obtain ⟨tr', e', m2, m2', g1, g2, g3⟩ := ih tr2.length (by rw [← hn]; simp) q3 q4 hD hk hk' (r3 c1 hs) hx
        (fun x hx => hr x (List.mem_cons_of_mem _ hx)) rfl
      refine ⟨(e, i) :: tr', e', m2, m2', .cons ⟨q1, _, q2⟩ g1, ?_, g3⟩
      have hpe : e.pc = c.pc := h.pc
      unfold outsidePiece at g2 ⊢
      rw [List.filter_cons_of_pos (by simp [hpe, hin]), List.filter_cons_of_pos (by simp [hin]), List.map_cons,
        List.map_cons, g2]

theorem swap_instructions (h : Executes b c tr c') : ∃ l, Instructions b c l c' := by
  induction h with
  | nil c => exact ⟨[], .nil c⟩
  | cons hs _ ih =>
    obtain ⟨-, ops, hn⟩ := hs
    obtain ⟨l, hl⟩ := ih
    exact ⟨ops :: l, .cons hn hl⟩

/-- C141 for `run`: whatever one program has done after some cycles, when it is outside the piece, the other
has done after some cycles as well. -/
theorem C141_run (hI : Coherent b I) (hI' : Coherent b I') (hacc : AcceptsAt b I' W)
    (hw : SameWork b I I' R code code' p)
    (hm : I c.address_map mem) (hm' : I' e.address_map mem') (h : Agree (inPiece R) (regs c) (regs e) mem mem')
    (hc : HoldsPiece R code mem) (hc' : HoldsPiece R code' mem') (hpc : R c.pc → c.pc = p)
    {n : Nat} (hrun : run b c n = .ok (.ready c')) (hr : ∀ tr, Executes b c tr c' → Respects b I W R p tr)
    (hend : ¬R c'.pc) :
    ∃ n' e' m m', run b e n' = .ok (.ready e') ∧ I c'.address_map m ∧ I' e'.address_map m' ∧
      Agree (inPiece R) (regs c') (regs e') m m' := by
  obtain ⟨tr, hx⟩ := C86_run hrun
  obtain ⟨tr', e', m, m', h1, -, h3, h4, h5, -⟩ := C141_swap hI hI' hacc hw hm hm' h hc hc' hpc hx (hr tr hx) hend
  obtain ⟨l, hl⟩ := swap_instructions h1
  exact ⟨totalCycles l, e', m, m', C12_run_eq hl le_rfl (.inl rfl), h3, h4, h5⟩

/-- One line of a listing. -/
theorem swap_line {bs cs : List Byte} {l : Line} (hI : Coherent b I) (hacc : AcceptsAt b I W)
    (hm : I c.address_map mem) (hen : Encodes bs l) (hh : HoldsAt mem c.pc (bs ++ cs))
    (hb : b.overflowChecks = false ∨ c.pc.toNat < 65534) (hok : AddrOk b (regs c) mem l.2)
    (hW : ∀ a ∈ writable (regs c) mem l.1 l.2, W a) :
    ∃ i c', Step b c i c' ∧ regs c' = (codeEffect (regs c) mem l.1 l.2).regs ∧
      I c'.address_map ((codeEffect (regs c) mem l.1 l.2).writes.foldl (fun m w => upd m w.1 w.2) mem) := by
  have hv := (hI _ _ hm).1
  obtain ⟨i, hat, rfl⟩ := (C117_fetch hv hen hh).2 hb
  obtain ⟨bus, hbus⟩ := writeAll_accepted hI hacc (codeEffect (regs c) mem (view i).1 (view i).2).writes hm
    fun w hw => hW _ (by rw [← codeEffect_writes]; exact List.mem_map_of_mem hw)
  have hst := step_ok hat hv hok
  simp only [hbus] at hst
  exact ⟨i, _, ⟨hat, _, hst⟩, rfl, writeAll_coherent hI _ hm hbus⟩

end

/-! ### Two pieces that do the same -/

theorem span_word (p : Word) {n k : Nat} (hk : k < 65536) : span p n (word (p.toNat + k)) ↔ k < n := by
  unfold span
  have : p + BitVec.ofNat 16 k - p = BitVec.ofNat 16 k := by
    rw [BitVec.add_comm, BitVec.add_sub_cancel]
  rw [word_add_ofNat, this, BitVec.toNat_ofNat, Nat.mod_eq_of_lt hk]

/-- What a listing leaves. -/
def listEffect : List Line → Regs → Mem → Regs × Mem
  | [], r, mem => (r, mem)
  | l :: is, r, mem => listEffect is (codeEffect r mem l.1 l.2).regs
      ((codeEffect r mem l.1 l.2).writes.foldl (fun m w => upd m w.1 w.2) mem)

/-- What its lines have to meet on the way: no panic, no jump, and no store into the piece. -/
def Fine (b : Build) (W R : Word → Prop) : List Line → Regs → Mem → Prop
  | [], _, _ => True
  | l :: is, r, mem => AddrOk b r mem l.2 ∧ (∀ a ∈ (codeEffect r mem l.1 l.2).writes.map Prod.fst, W a ∧ ¬R a) ∧
      (codeEffect r mem l.1 l.2).regs.pc = nextPc r l.2 ∧
      Fine b W R is (codeEffect r mem l.1 l.2).regs
        ((codeEffect r mem l.1 l.2).writes.foldl (fun m w => upd m w.1 w.2) mem)

section
variable {B : Type} [Addressable B] {b : Build} {I : B → Mem → Prop} {W : Word → Prop} {p : Word}
  {c : Mos6502 B} {mem : Mem} {is : List Line} {bs : List Byte} {n k : Nat}

theorem swap_listing (hI : Coherent b I) (hacc : AcceptsAt b I W) (ha : Assembles is bs)
    (hm : I c.address_map mem) (hpc : c.pc = word (p.toNat + k)) (hk : k + bs.length = n) (hn : n < 65536)
    (hh : HoldsAt mem c.pc bs) (hb : b.overflowChecks = false ∨ p.toNat + n < 65535)
    (hf : Fine b W (span p n) is (regs c) mem) :
    ∃ tr c', Executes b c tr c' ∧ (∀ x ∈ tr, span p n x.1.pc) ∧ regs c' = (listEffect is (regs c) mem).1 ∧
      c'.pc = word (p.toNat + n) ∧ I c'.address_map (listEffect is (regs c) mem).2 ∧
      ∀ a, span p n a → (listEffect is (regs c) mem).2 a = mem a := by
  induction ha generalizing c mem k with
  | nil =>
    rw [List.length_nil, Nat.add_zero] at hk
    subst hk
    refine ⟨[], c, .nil c, fun _ hx => (by cases hx), rfl, hpc, hm, fun _ _ => rfl⟩
  | @cons l is bs cs h1 h2 ih =>
    obtain ⟨f1, f2, f3, f4⟩ := hf
    rw [List.length_append] at hk
    have hsz : 1 ≤ bs.length := by rw [h1.1]; cases l.2 <;> simp [size]
    have hv := (hI _ _ hm).1
    obtain ⟨i, hat, rfl⟩ := (C117_fetch hv h1 hh).2 (hb.imp id fun h => by
      rw [hpc]
      unfold word
      rw [BitVec.toNat_ofNat]
      omega)
    obtain ⟨bus, hbus⟩ := writeAll_accepted hI hacc (codeEffect (regs c) mem (view i).1 (view i).2).writes hm
      fun w hw => (f2 _ (List.mem_map_of_mem hw)).1
    have hst := step_ok hat hv f1
    simp only [hbus] at hst
    have hm1 := writeAll_coherent hI _ hm hbus
    have hkeep : ∀ a, span p n a → (codeEffect (regs c) mem (view i).1 (view i).2).writes.foldl
        (fun m w => upd m w.1 w.2) mem a = mem a :=
      fun a ha => foldl_upd_other a _ _ fun hh => (f2 a hh).2 ha
    have hpc1 : (codeEffect (regs c) mem (view i).1 (view i).2).regs.pc = word (p.toNat + (k + bs.length)) := by
      rw [f3, h1.1]
      show word (c.pc.toNat + size (view i).2) = _
      rw [hpc, word_add_add]
    obtain ⟨tr, c', g1, g2, g3, g4, g5, g6⟩ := ih
      (c := withRegs (codeEffect (regs c) mem (view i).1 (view i).2).regs bus) (k := k + bs.length) hm1 hpc1
      (by omega) (by
        intro j v hj
        have := holds_tail hh j v hj
        rw [hpc, word_add_add, word_add_add] at this
        have hj' : j < cs.length := by
          rcases Nat.lt_or_ge j cs.length with h | h
          · exact h
          · rw [List.getElem?_eq_none h] at hj; cases hj
        rw [show (withRegs (codeEffect (regs c) mem (view i).1 (view i).2).regs bus).pc =
          word (p.toNat + (k + bs.length)) from hpc1, word_add_add, hkeep _ ((span_word p (by omega)).2 (by omega))]
        rwa [← Nat.add_assoc k] at this) f4
    refine ⟨(c, i) :: tr, c', .cons ⟨hat, _, hst⟩ g1, ?_, g3, g4, g5, ?_⟩
    · intro x hx
      rcases List.mem_cons.1 hx with rfl | hx
      · show span p n c.pc
        rw [hpc]
        exact (span_word p (by omega)).2 (by omega)
      · exact g2 x hx
    · exact fun a ha => (g6 a ha).trans (hkeep a ha)

end

/-- The same registers, as the parts say. -/
theorem agree_regs {R : Word → Prop} {r r' : Regs} {mem mem' : Mem} (h : Agree (inPiece R) r r' mem mem') :
    r' = r := by
  have hb : ∀ {u v : Bool}, bitByte u = bitByte v → u = v := by decide
  have hv : ∀ q : Part, (∀ a, q ≠ .mem a) → value r' mem' q = value r mem q :=
    fun q hq => h.value q fun ⟨a, _, e⟩ => hq a e
  have e1 := hv .a nofun
  have e2 := hv .x nofun
  have e3 := hv .y nofun
  have e4 := hv .sp nofun
  have f1 := hb (hv (.flag .Negative) nofun)
  have f2 := hb (hv (.flag .Overflow) nofun)
  have f3 := hb (hv .unused nofun)
  have f4 := hb (hv (.flag .Break) nofun)
  have f5 := hb (hv (.flag .Decimal) nofun)
  have f6 := hb (hv (.flag .Interrupt) nofun)
  have f7 := hb (hv (.flag .Zero) nofun)
  have f8 := hb (hv (.flag .Carry) nofun)
  have e5 := h.pc
  obtain ⟨a, x, y, sp, pc, ⟨p1, p2, p3, p4, p5, p6, p7, p8⟩⟩ := r
  obtain ⟨a', x', y', sp', pc', ⟨q1, q2, q3, q4, q5, q6, q7, q8⟩⟩ := r'
  simp only [value] at e1 e2 e3 e4
  simp only at e5 f1 f2 f3 f4 f5 f6 f7 f8
  subst e1 e2 e3 e4 e5 f1 f2 f3 f4 f5 f6 f7 f8
  rfl

theorem agree_of {R : Word → Prop} {r r' : Regs} {mem mem' : Mem} (h : r' = r)
    (hm : ∀ a, ¬R a → mem' a = mem a) : Agree (inPiece R) r r' mem mem' := by
  subst h
  refine ⟨rfl, fun q hq => ?_⟩
  cases q with
  | mem a => exact hm a fun ha => hq ⟨a, ha, rfl⟩
  | flag f => cases f <;> rfl
  | _ => rfl

section
variable {B B' : Type} [Addressable B] [Addressable B'] {b : Build} {I : B → Mem → Prop} {I' : B' → Mem → Prop}
  {W W' : Word → Prop} {p : Word} {is is' : List Line} {bs bs' : List Byte} {code code' : Mem}

/-- Two listings of one length that leave the same. -/
theorem sameWork_listings (hI : Coherent b I) (hI' : Coherent b I') (hacc : AcceptsAt b I W)
    (hacc' : AcceptsAt b I' W') (ha : Assembles is bs) (ha' : Assembles is' bs')
    (hlen : bs'.length = bs.length) (hn : bs.length < 65536)
    (hb : b.overflowChecks = false ∨ p.toNat + bs.length < 65535) (hc : HoldsAt code p bs)
    (hc' : HoldsAt code' p bs')
    (hf : ∀ r mem, r.pc = p → Fine b W (span p bs.length) is r mem ∧ Fine b W' (span p bs.length) is' r mem)
    (he : ∀ r mem mem', r.pc = p → (∀ a, ¬span p bs.length a → mem' a = mem a) →
      (listEffect is' r mem').1 = (listEffect is r mem).1 ∧
      ∀ a, ¬span p bs.length a → (listEffect is' r mem').2 a = (listEffect is r mem).2 a) :
    SameWork b I I' (span p bs.length) code code' p := by
  intro c e mem mem' hm hm' hpc h hh hh'
  have hre := agree_regs h
  have hpe : e.pc = p := (congrArg Regs.pc hre).trans hpc
  have hout : ∀ a, ¬span p bs.length a → mem' a = mem a := fun a ha =>
    h.value (.mem a) fun ⟨a', ha', e⟩ => ha (by cases e; exact ha')
  have hp0 : p = word (p.toNat + 0) := by
    rw [word_add_ofNat]
    simp
  have hhold : ∀ {code mem : Mem} {bs : List Byte} {n : Nat}, bs.length = n → n < 65536 → HoldsAt code p bs →
      HoldsPiece (span p n) code mem → HoldsAt mem p bs := by
    intro code mem bs n hl hn h1 h2 k v hk
    have hk' : k < bs.length := by
      rcases Nat.lt_or_ge k bs.length with h | h
      · exact h
      · rw [List.getElem?_eq_none h] at hk; cases hk
    rw [h2 _ ((span_word p (by omega)).2 (by omega)), h1 k v hk]
  obtain ⟨tr, c1, g1, g2, g3, g4, g5, g6⟩ := swap_listing (k := 0) hI hacc ha hm (hpc.trans hp0) (by omega) hn
    (hpc ▸ hhold rfl hn hc hh) hb (hf (regs c) mem hpc).1
  obtain ⟨tr', e1, k1, k2, k3, k4, k5, k6⟩ := swap_listing (k := 0) hI' hacc' ha' hm' (hpe.trans hp0) (by omega) hn
    (hpe ▸ hhold hlen hn hc' hh') hb (hf (regs e) mem' hpe).2
  obtain ⟨r1, r2⟩ := he (regs c) mem mem' hpc hout
  rw [← hre] at r1 r2
  refine ⟨tr, c1, tr', e1, _, _, g1, k1, g2, k2, ?_, g5, k5, agree_of ?_ ?_, ?_, ?_⟩
  · rw [g4]
    exact fun hh => absurd ((span_word p hn).1 hh) (by omega)
  · rw [k3, g3, r1, hre]
  · intro a ha
    rw [r2 a ha, hre]
  · exact fun a ha => (g6 a ha).trans (hh a ha)
  · exact fun a ha => (k6 a ha).trans (hh' a ha)

/-- C141, an example: `CLC; ROL A` and `ASL A; NOP` do the same work, wherever they are. -/
theorem C141_clc_rol (hI : Coherent b I) (hI' : Coherent b I') (hc : HoldsAt code p [0x18, 0x2a])
    (hc' : HoldsAt code' p [0x0a, 0xea]) (hb : b.overflowChecks = false ∨ p.toNat + 2 < 65535) :
    SameWork b I I' (span p 2) code code' p := by
  refine sameWork_listings (W := fun _ => False) (W' := fun _ => False)
    (is := [(.Clc, .implied), (.Rol, .accumulator)]) (is' := [(.Asl, .accumulator), (.Nop, .implied)])
    (bs := [0x18, 0x2a]) (bs' := [0x0a, 0xea]) hI hI' (fun _ _ _ _ h => h.elim) (fun _ _ _ _ h => h.elim)
    (.cons (bs := [0x18]) ⟨rfl, rfl⟩ (.cons (bs := [0x2a]) ⟨rfl, rfl⟩ .nil))
    (.cons (bs := [0x0a]) ⟨rfl, rfl⟩ (.cons (bs := [0xea]) ⟨rfl, rfl⟩ .nil)) rfl (by decide) hb hc hc' ?_ ?_
  · intro r mem _
    refine ⟨⟨trivial, ?_, rfl, trivial, ?_, rfl, trivial⟩, trivial, ?_, rfl, trivial, ?_, rfl, trivial⟩ <;>
      simp [codeEffect, shiftEffect]
  · intro r mem mem' _ h
    refine ⟨?_, ?_⟩
    · simp [listEffect, codeEffect, shiftEffect, operand, bit, nextPc, size, setNZ]
      exact ⟨rfl, rfl, rfl⟩
    · simpa [listEffect, codeEffect, shiftEffect] using h

/-- C141, another: behind `STA z`, `LDA z` can be `ORA #0`, if a store to `z` is accepted. -/
theorem C141_forward {z : Byte} (hI : Coherent b I) (hI' : Coherent b I') (hacc : AcceptsAt b I (· = word z.toNat))
    (hacc' : AcceptsAt b I' (· = word z.toNat)) (hc : HoldsAt code p [0x85, z, 0xa5, z])
    (hc' : HoldsAt code' p [0x85, z, 0x09, 0]) (hz : ¬span p 4 (word z.toNat))
    (hb : b.overflowChecks = false ∨ p.toNat + 4 < 65535) :
    SameWork b I I' (span p 4) code code' p := by
  refine sameWork_listings (W := (· = word z.toNat)) (W' := (· = word z.toNat))
    (is := [(.Sta, .zeroPage z), (.Lda, .zeroPage z)]) (is' := [(.Sta, .zeroPage z), (.Ora, .immediate 0)])
    (bs := [0x85, z, 0xa5, z]) (bs' := [0x85, z, 0x09, 0]) hI hI' hacc hacc'
    (.cons (bs := [0x85, z]) ⟨rfl, by show documented 0x85 z 0 = _; rfl⟩ (.cons (bs := [0xa5, z]) ⟨rfl, by show documented 0xa5 z 0 = _; rfl⟩ .nil))
    (.cons (bs := [0x85, z]) ⟨rfl, by show documented 0x85 z 0 = _; rfl⟩ (.cons (bs := [0x09, 0]) ⟨rfl, rfl⟩ .nil)) rfl (by simp) hb hc hc' ?_ ?_
  · intro r mem _
    refine ⟨⟨trivial, ?_, rfl, trivial, ?_, rfl, trivial⟩, trivial, ?_, rfl, trivial, ?_, rfl, trivial⟩ <;>
      simp [codeEffect, ea]
    · exact hz
    · exact hz
  · intro r mem mem' _ h
    refine ⟨?_, ?_⟩
    · simp [listEffect, codeEffect, operand, ea, nextPc, size, setNZ, upd]
    · intro a ha
      simp [listEffect, codeEffect, upd, h a ha]
      rfl

end

/-! ### Concrete cases -/

/-- `LDA #0x41; CLC; ROL A; TAX` at 0x200. -/
def swapCode : Mos6502 FlatRam := loadedAt 0x200 [0xa9, 0x41, 0x18, 0x2a, 0xaa]

/-- The same with `ASL A; NOP`. -/
def swapCode' : Mos6502 FlatRam := loadedAt 0x200 [0xa9, 0x41, 0x0a, 0xea, 0xaa]

/-- The machine after an instruction. -/
def flatNext (c : Mos6502 FlatRam) (i : InstructionVariant) : Mos6502 FlatRam :=
  withRegs (regsAfter (regs c) c.address_map.mem i) ⟨memAfter (regs c) c.address_map.mem i⟩

/-- After one instruction. -/
def swap1 : Mos6502 FlatRam := flatNext swapCode (.LdaImmediate 0x41)

/-- After two. -/
def swap2 : Mos6502 FlatRam := flatNext swap1 .ClcImplied

/-- After three. -/
def swap3 : Mos6502 FlatRam := flatNext swap2 .RolAccumulator

/-- After four. -/
def swap4 : Mos6502 FlatRam := flatNext swap3 .TaxImplied

theorem swap_agree : Agree (inPiece (span 0x202 2)) (regs swapCode) (regs swapCode') swapCode.address_map.mem
    swapCode'.address_map.mem := by
  refine agree_of (loadedAt_regs _ _ _) fun a ha => ?_
  show loaded 0x200 [0xa9, 0x41, 0x0a, 0xea, 0xaa] (fun _ => 0) a =
    loaded 0x200 [0xa9, 0x41, 0x18, 0x2a, 0xaa] (fun _ => 0) a
  simp only [loaded, List.length_cons, List.length_nil]
  by_cases hr : 0x200 ≤ a.toNat ∧ a.toNat < 0x200 + 5
  · have h0 : a.toNat ≠ 0x202 := fun h => ha (by
      have : a = 0x202 := BitVec.eq_of_toNat_eq h
      subst this
      decide)
    have h1 : a.toNat ≠ 0x203 := fun h => ha (by
      have : a = 0x203 := BitVec.eq_of_toNat_eq h
      subst this
      decide)
    obtain hk | hk | hk : a.toNat - 0x200 = 0 ∨ a.toNat - 0x200 = 1 ∨ a.toNat - 0x200 = 4 := by omega
    all_goals
      rw [if_pos hr, if_pos hr, hk]
      rfl
  · rw [if_neg hr, if_neg hr]

/-- The hypotheses of `C141_swap` and `C141_clc_rol` for it. -/
example : ∃ tr' e', Executes .debug swapCode' tr' e' ∧
    outsidePiece (span 0x202 2) tr' = [.LdaImmediate 0x41, .TaxImplied] ∧ e'.x = 0x82 := by
  have s1 : Step .debug swapCode (.LdaImmediate 0x41) swap1 :=
    flat_step (by decide +kernel) (by decide +kernel) trivial
  have s2 : Step .debug swap1 .ClcImplied
      swap2 :=
    flat_step (by decide +kernel) (by decide +kernel) trivial
  have s3 : Step .debug swap2 .RolAccumulator
      swap3 :=
    flat_step (by decide +kernel) (by decide +kernel) trivial
  have s4 : Step .debug swap3
      .TaxImplied
      swap4 :=
    flat_step (by decide +kernel) (by decide +kernel) trivial
  have hh : ∀ (c : Mos6502 FlatRam) (u v : Byte), c.address_map.mem 0x202 = u → c.address_map.mem 0x203 = v →
      HoldsAt c.address_map.mem 0x202 [u, v] := by
    intro c u v h1 h2 k w hk
    match k, hk with
    | 0, hk => cases hk; exact h1
    | 1, hk => cases hk; exact h2
    | k + 2, hk => cases hk
  have hw := C141_clc_rol (p := 0x202) (code := swapCode.address_map.mem) (code' := swapCode'.address_map.mem)
    (flatRam_coherent .debug) (flatRam_coherent .debug) (hh _ _ _ (by decide +kernel) (by decide +kernel))
    (hh _ _ _ (by decide +kernel) (by decide +kernel)) (.inr (by decide))
  have hr : Respects .debug (fun (d : FlatRam) mem => d.mem = mem) (fun _ => True) (span 0x202 2) 0x202
      [(swapCode, .LdaImmediate 0x41), (swap1, .ClcImplied),
        (swap2, .RolAccumulator),
        (swap3, .TaxImplied)] := by
    have huse : ∀ l : List Part,
        (∀ q ∈ l, (match q with | .mem a => decide (span 0x202 2 a) | _ => false) = false) →
        ∀ q ∈ l, ¬inPiece (span 0x202 2) q := by
      rintro l h q hq ⟨a, ha, rfl⟩
      exact of_decide_eq_false (h _ hq) ha
    have hdet : ∀ {c d d' : Mos6502 FlatRam} {i}, Step .debug c i d → Step .debug c i d' → d' = d := by
      rintro c d d' i ⟨-, o, h⟩ ⟨-, o', h'⟩
      rw [h] at h'
      cases h'
      rfl
    intro x hx
    simp only [List.mem_cons, List.not_mem_nil, or_false] at hx
    rcases hx with rfl | rfl | rfl | rfl
    · rintro - m rfl
      refine ⟨huse _ (by decide +kernel), by decide +kernel, fun c' hc => ?_⟩
      rw [hdet s1 hc]
      decide +kernel
    · exact fun h => absurd (by decide +kernel) h
    · exact fun h => absurd (by decide +kernel) h
    · rintro - m rfl
      refine ⟨huse _ (by decide +kernel), by decide +kernel, fun c' hc => ?_⟩
      rw [hdet s4 hc]
      decide +kernel
  obtain ⟨tr', e', m, m', h1, h2, h3, h4, h5, -⟩ := C141_swap (flatRam_coherent .debug) (flatRam_coherent .debug)
    (flat_acceptsAt .debug _) hw rfl rfl swap_agree (fun _ _ => rfl) (fun _ _ => rfl) (by decide +kernel)
    (.cons s1 (.cons s2 (.cons s3 (.cons s4 (.nil _))))) hr (by decide +kernel)
  refine ⟨tr', e', h1, h2.trans (by decide +kernel), ?_⟩
  have := congrArg Regs.x (agree_regs h5)
  exact Eq.trans this (by decide +kernel)

/-- The machine in the middle of the piece. -/
def swapMiddle (c : Mos6502 FlatRam) : Mos6502 FlatRam := withRegs { sampleRegs with pc := 0x203, a := 1 } c.address_map

/-- C141: that the piece is entered at its beginning only is needed. At the second byte the one program shifts A
and the other does not. -/
theorem C141_middle : ∃ c1 e1 : Mos6502 FlatRam,
    Step .debug (swapMiddle swapCode) .RolAccumulator c1 ∧
    Step .debug (swapMiddle swapCode') .NopImplied e1 ∧ c1.acc ≠ 1 ∧ e1.acc = 1 :=
  ⟨flatNext (swapMiddle swapCode) .RolAccumulator, flatNext (swapMiddle swapCode') .NopImplied,
    flat_step (by decide +kernel) (by decide +kernel) trivial,
    flat_step (by decide +kernel) (by decide +kernel) trivial, by decide +kernel, by decide +kernel⟩

end Verif.Props
