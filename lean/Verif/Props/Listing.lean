import Verif.Proofs.Listing
import Verif.Props.Mos.Uses
import Verif.Props.Chip8.Data
import Verif.Props.Chip8.Rename

/-!
# C117: code in memory is executed in the order in which it is written

Assembled instructions can be read back in one way only, and they are executed one after the other. There is
no prefetch: an instruction is executed as memory holds it after the instruction before it.
-/

namespace Verif.Props

open Verif Verif.Mos Verif.Spec.Mos

section
variable {B : Type} [Addressable B] {b : Build} {I : B → Mem → Prop} {c c' : Mos6502 B} {mem : Mem}
  {i : InstructionVariant} {is js : List Line} {bs cs : List Byte}
  {tr : List (Mos6502 B × InstructionVariant)}

/-- C117: a listing has one encoding. -/
theorem C117_assembly_unique (h : Assembles is bs) (h' : Assembles is cs) : bs = cs := by
  induction h generalizing cs with
  | nil => cases h'; rfl
  | cons h1 _ ih =>
    cases h' with
    | cons h2 h3 => rw [encodes_inj h1 h2, ih h3]

/-- C117: bytes are the encoding of one listing at most. -/
theorem C117_disassembly_unique (h : Assembles is bs) (h' : Assembles js bs) : is = js := by
  induction h generalizing js with
  | nil =>
    generalize hb : ([] : List Byte) = bs at h'
    cases h' with
    | nil => rfl
    | @cons i is bs cs h1 h2 =>
      have := size_pos i.2
      have := h1.1
      have := congrArg List.length hb
      simp only [List.length_nil, List.length_append] at this
      omega
  | @cons i is bs cs h1 _ ih =>
    generalize hb : bs ++ cs = ds at h'
    cases h' with
    | nil =>
      have := size_pos i.2
      have := h1.1
      have := congrArg List.length hb
      simp only [List.length_nil, List.length_append] at this
      omega
    | cons h2 h3 =>
      obtain ⟨rfl, rfl, rfl⟩ := encodes_prefix h1 h2 hb
      rw [ih h3]

/-- C117: every documented instruction can be assembled. -/
theorem C117_encodable {x b1 b2 : Byte} {l : Line} (h : documented x.toNat b1 b2 = some l) :
    Encodes ([x, b1, b2].take (size l.2)) l := by
  have hs := size_pos l.2
  refine ⟨by rw [List.length_take]; show min (size l.2) 3 = _; omega, ?_⟩
  obtain hz | hz | hz : size l.2 = 1 ∨ size l.2 = 2 ∨ size l.2 = 3 := by omega
  all_goals
    rw [hz]
    exact documented_prefix h (fun h => by first | rfl | omega) (fun h => by first | rfl | omega)

/-- C117: in front of a listing, the emulator fetches its first instruction and no other. -/
theorem C117_fetch {l : Line} (hv : BusView b c.address_map mem) (h : Encodes bs l)
    (hh : HoldsAt mem c.pc (bs ++ cs)) :
    (∀ i, At b c i → view i = l) ∧
    (b.overflowChecks = false ∨ c.pc.toNat < 65534 → ∃ i, At b c i ∧ view i = l) := by
  have hd := holds_documented h hh
  refine ⟨fun i hat => ?_, fun hpc => C64_all hv hpc hd⟩
  have := C64_fetch hv hat
  rw [hd] at this
  exact (Option.some.inj this).symm

/-- Memory after an instruction, outside what it writes. -/
theorem step_memory (hI : Coherent b I) (hm : I c.address_map mem) (hs : Step b c i c') :
    ∃ ws : List (Word × Byte), ws.map Prod.fst = writable (regs c) mem (view i).1 (view i).2 ∧
      I c'.address_map (store mem ws) := by
  obtain ⟨hat, ops, hn⟩ := hs
  obtain ⟨ws, h1, h2⟩ := C16_writes hat (hI _ _ hm).1 rfl hn
  exact ⟨ws, h1, writeAll_coherent hI ws hm h2⟩

theorem store_other (ws : List (Word × Byte)) (a : Word) : ∀ {mem : Mem}, a ∉ ws.map Prod.fst →
    store mem ws a = mem a := by
  unfold store
  induction ws with
  | nil => intro mem _; rfl
  | cons w ws ih =>
    intro mem h
    simp only [List.map_cons, List.mem_cons, not_or] at h
    rw [List.foldl_cons, ih h.2]
    exact if_neg h.1

/-- C117: the instructions of a listing without jumps are executed one after the other, as long as none of
them stores into those that follow. -/
theorem C117_in_order (hI : Coherent b I) (hm : I c.address_map mem) (ha : Assembles is bs)
    (hh : HoldsAt mem c.pc bs) (hc : ∀ l ∈ is, transfersControl l.1 = false) (hx : Executes b c tr c')
    (hlen : tr.length ≤ is.length) (hsp : Spares I c.pc is bs.length tr) :
    tr.map (fun x => view x.2) = is.take tr.length ∧
    (∀ k x, tr[k]? = some x → x.1.pc = word (c.pc.toNat + offset is k)) ∧
    c'.pc = word (c.pc.toNat + offset is tr.length) ∧
    ∃ mem', I c'.address_map mem' ∧ HoldsAt mem' c'.pc (bs.drop (offset is tr.length)) := by
  induction hx generalizing mem is bs with
  | nil c =>
    have e : word (c.pc.toNat + 0) = c.pc := by
      rw [word_add_ofNat]; simp
    have e0 : offset is ([] : List (Mos6502 B × InstructionVariant)).length = 0 := by simp [offset]
    rw [e0]
    exact ⟨by simp, fun k x h => by simp at h, e.symm, mem, hm, hh⟩
  | @cons c c1 c2 i tr hs hx ih =>
    cases ha with
    | nil => simp at hlen
    | @cons l is bs cs h1 h2 =>
      have hv := (hI _ _ hm).1
      have hvi := (C117_fetch hv h1 hh).1 i hs.1
      obtain ⟨hat, ops, hn⟩ := hs
      have hpc : c1.pc = word (c.pc.toNat + size l.2) := by
        have hct := hc l (by simp)
        refine C15_pc_advances hat hv (mn := l.1) (am := l.2) hvi ?_ hn
        revert hct
        cases l.1 <;> exact id
      obtain ⟨ws, w1, w2⟩ := step_memory hI hm ⟨hat, ops, hn⟩
      have ho : ∀ k, offset (l :: is) (k + 1) = size l.2 + offset is k := fun k => by
        simp [offset]
      have hsp0 := hsp 0 (c, i) mem rfl hm
      have hh1 : HoldsAt (store mem ws) c1.pc cs := by
        intro k v hk
        have hkl : k < cs.length := by
          apply Classical.byContradiction
          intro hn
          rw [List.getElem?_eq_none (by omega)] at hk
          cases hk
        have hmem := holds_tail hh k v hk
        rw [h1.1, ← hpc] at hmem
        rw [store_other ws _ ?_, hmem]
        rw [w1, hpc, word_add_add]
        refine hsp0 _ (by rw [ho]; show size l.2 + 0 ≤ _; omega) ?_
        rw [List.length_append, h1.1]
        omega
      obtain ⟨r1, r2, r3, r4⟩ := ih w2 h2 hh1 (fun l hl => hc l (List.mem_cons_of_mem _ hl))
        (by simpa using hlen) (fun k x m hk hx j hj hj' => by
          have := hsp (k + 1) x m hk hx (size l.2 + j) (by rw [ho]; omega)
            (by rw [List.length_append, h1.1]; omega)
          rwa [hpc, word_add_add])
      have hd : (bs ++ cs).drop (offset (l :: is) (tr.length + 1)) = cs.drop (offset is tr.length) := by
        rw [ho, ← h1.1, List.drop_append]
        have : bs.length + offset is tr.length - bs.length = offset is tr.length := by omega
        rw [this, List.drop_eq_nil_of_le (by omega), List.nil_append]
      rw [hpc] at r2 r3
      simp only [word_add_add] at r2 r3
      refine ⟨?_, ?_, ?_, ?_⟩
      · simp only [List.map_cons, List.length_cons, List.take_succ_cons, r1]
        rw [hvi]
      · intro k x hk
        cases k with
        | zero =>
          cases hk
          show c.pc = word (c.pc.toNat + 0)
          rw [word_add_ofNat]
          simp
        | succ k =>
          rw [ho]
          exact r2 k x hk
      · rw [List.length_cons, ho]
        exact r3
      · rw [List.length_cons, hd]
        exact r4

theorem executes_snoc {c1 : Mos6502 B} (h : Executes b c tr c') (hs : Step b c' i c1) :
    Executes b c (tr ++ [(c', i)]) c1 := by
  induction h with
  | nil c => exact .cons hs (.nil _)
  | cons h1 _ ih => exact .cons h1 (ih hs)

theorem assembles_drop (h : Assembles is bs) (n : Nat) : Assembles (is.drop n) (bs.drop (offset is n)) := by
  induction h generalizing n with
  | nil => simpa using Assembles.nil
  | @cons l is bs cs h1 h2 ih =>
    cases n with
    | zero => simpa [offset] using Assembles.cons h1 h2
    | succ n =>
      have ho : offset (l :: is) (n + 1) = size l.2 + offset is n := by simp [offset]
      have : bs.length + offset is n - bs.length = offset is n := by omega
      rw [ho, ← h1.1, List.drop_append, this, List.drop_eq_nil_of_le (as := bs) (by omega),
        List.nil_append, List.drop_succ_cons]
      exact ih n

/-- C117: the listing is executed to its end, on a bus that accepts every store and in a build without
overflow checks. -/
theorem C117_executes (hb : b.overflowChecks = false) (hI : Coherent b I) (hacc : Accepts b I)
    (hm : I c.address_map mem) (ha : Assembles is bs) (hh : HoldsAt mem c.pc bs)
    (hc : ∀ l ∈ is, transfersControl l.1 = false)
    (hsp : ∀ tr c', Executes b c tr c' → tr.map (fun x => view x.2) <+: is →
      Spares I c.pc is bs.length tr) :
    ∃ tr c', Executes b c tr c' ∧ tr.map (fun x => view x.2) = is ∧
      c'.pc = word (c.pc.toNat + bs.length) := by
  suffices H : ∀ n, n ≤ is.length →
      ∃ tr c', Executes b c tr c' ∧ tr.map (fun x => view x.2) = is.take n by
    obtain ⟨tr, c', h1, h2⟩ := H _ (Nat.le_refl _)
    rw [List.take_length] at h2
    have hl : tr.length = is.length := by rw [← h2, List.length_map]
    obtain ⟨-, -, r3, -⟩ := C117_in_order hI hm ha hh hc h1 (by omega)
      (hsp tr c' h1 (by rw [h2]; exact List.prefix_refl _))
    refine ⟨tr, c', h1, h2, ?_⟩
    have hlen : ∀ {is bs}, Assembles is bs → offset is is.length = bs.length := fun h => by
      induction h with
      | nil => rfl
      | @cons l is bs cs h1 _ ih =>
        have ho : offset (l :: is) (is.length + 1) = size l.2 + offset is is.length := by simp [offset]
        rw [List.length_cons, ho, List.length_append, h1.1, ih]
    rw [r3, hl, hlen ha]
  intro n
  induction n with
  | zero => exact fun _ => ⟨[], c, .nil c, rfl⟩
  | succ n ih =>
    intro hn
    obtain ⟨tr, c1, h1, h2⟩ := ih (by omega)
    have hl : tr.length = n := by
      have := congrArg List.length h2
      rw [List.length_map, List.length_take] at this
      omega
    obtain ⟨-, -, -, m, h3, h4⟩ := C117_in_order hI hm ha hh hc h1 (by omega)
      (hsp tr c1 h1 (by rw [h2]; exact List.take_prefix _ _))
    have hd := assembles_drop ha tr.length
    generalize bs.drop (offset is tr.length) = ds at hd h4
    rw [hl, List.drop_eq_getElem_cons (by omega)] at hd
    cases hd with
    | cons e1 e2 =>
      have hv := (hI _ _ h3).1
      obtain ⟨i, hat, hi⟩ := (C117_fetch hv e1 h4).2 (.inl hb)
      obtain ⟨bus, hbus⟩ := writeAll_accepted (W := fun _ => True) hI
        (fun bus m hm a _ v => hacc bus m hm a v) (codeEffect (regs c1) m (view i).1 (view i).2).writes h3
        fun _ _ => trivial
      have hst := step_ok hat hv (by unfold AddrOk; split <;> first | exact .inl hb | trivial)
      rw [hbus] at hst
      refine ⟨_, _, executes_snoc h1 ⟨hat, _, hst⟩, ?_⟩
      rw [List.map_append, h2, List.map_singleton, hi, List.take_append_getElem]

/-- C117: there is no prefetch. The next instruction is the one memory holds after the stores of this one,
also where these go to the next instruction itself. -/
theorem C117_no_prefetch {c1 c2 : Mos6502 B} {j : InstructionVariant} (hI : Coherent b I)
    (hm : I c.address_map mem) (hs : Step b c i c1) (hs' : Step b c1 j c2) :
    ∃ ws : List (Word × Byte), ws.map Prod.fst = writable (regs c) mem (view i).1 (view i).2 ∧
      I c1.address_map (store mem ws) ∧
      documented (store mem ws c1.pc).toNat (store mem ws (c1.pc + 1)) (store mem ws (c1.pc + 2)) =
        some (view j) := by
  obtain ⟨ws, h1, h2⟩ := step_memory hI hm hs
  exact ⟨ws, h1, h2, C64_fetch (hI _ _ h2).1 hs'.1⟩
end

/-! ### Concrete cases -/

/-- `LDA #5`, `TAX`, `STA $10` and its bytes. -/
def fiveListing : List Line := [(.Lda, .immediate 5), (.Tax, .implied), (.Sta, .zeroPage 0x10)]

theorem five_assembles : Assembles fiveListing fiveProgram :=
  .cons (bs := [0xa9, 5]) ⟨rfl, rfl⟩ (.cons (bs := [0xaa]) ⟨rfl, rfl⟩
    (.cons (bs := [0x85, 0x10]) ⟨rfl, rfl⟩ .nil))

theorem five_holds : HoldsAt (loaded 0x200 fiveProgram fun _ => 0) 0x200 fiveProgram := by
  intro k v hk
  match k, hk with
  | 0, hk | 1, hk | 2, hk | 3, hk | 4, hk => cases hk; decide +kernel
  | k + 5, hk => cases hk

/-- The hypotheses of `C117_in_order`. -/
example : ∃ c', Executes .debug (loadedAt 0x200 fiveProgram)
    [(loadedAt 0x200 fiveProgram, .LdaImmediate 5), (fiveAt 5 sampleRegs.x 0x202, .TaxImplied),
      (fiveAt 5 5 0x203, .StaZeroPage 0x10)] c' ∧ c'.pc = 0x205 := by
  obtain ⟨c', h⟩ := five_executes
  obtain ⟨-, -, h3, -⟩ := C117_in_order (flatRam_coherent .debug) (mem := loaded 0x200 fiveProgram fun _ => 0)
    rfl five_assembles five_holds (by decide) h (by decide) (by
      intro k x mem hk _ j hj hj'
      match k, hk with
      | 0, hk | 1, hk => cases hk; exact List.not_mem_nil
      | 2, hk => exact absurd (Nat.lt_of_le_of_lt hj hj') (by decide)
      | k + 3, hk => cases hk)
  exact ⟨c', h, h3.trans (by decide)⟩

/-- The hypotheses of `C117_executes`: `LDA #5; TAX`. -/
example : ∃ tr c', Executes .release (loadedAt 0x200 [0xa9, 5, 0xaa]) tr c' ∧
    tr.map (fun x => view x.2) = [(.Lda, .immediate 5), (.Tax, .implied)] ∧ c'.pc = 0x203 := by
  refine C117_executes rfl (flatRam_coherent .release)
    (fun bus m _ a v => ⟨v, _, rfl⟩) (mem := loaded 0x200 [0xa9, 5, 0xaa] fun _ => 0) rfl
    (.cons (bs := [0xa9, 5]) ⟨rfl, rfl⟩ (.cons (bs := [0xaa]) ⟨rfl, rfl⟩ .nil)) ?_ (by decide) ?_
  · intro k v hk
    match k, hk with
    | 0, hk | 1, hk | 2, hk => cases hk; decide +kernel
    | k + 3, hk => cases hk
  · intro tr c' _ hp k x mem hk _ j _ _
    have hx : view x.2 ∈ [(.Lda, .immediate 5), (.Tax, .implied)] :=
      hp.subset (List.mem_map_of_mem (f := fun x => view x.2) (List.mem_of_getElem? hk))
    rcases List.mem_cons.1 hx with h | h
    · rw [h]; exact List.not_mem_nil
    · rw [List.mem_singleton.1 h]; exact List.not_mem_nil

/-- `INC $0204; LDA #5` changes its own second instruction: what is executed is `LDA #6`. -/
def changesItself : Mos6502 FlatRam := loadedAt 0x200 [0xee, 4, 2, 0xa9, 5]

example : ∃ c1 c2, Step .debug changesItself (.IncAbsolute 0x204) c1 ∧
    Step .debug c1 (.LdaImmediate 6) c2 ∧ c2.acc = 6 :=
  ⟨_, _, flat_step (by decide) (by decide +kernel) trivial,
    flat_step (by decide) (by decide +kernel) trivial, by decide +kernel⟩

end Verif.Props

namespace Verif.Props.Chip8

open Verif Verif.Chip8 Verif.Spec.Chip8
open Verif.Mos (FlatRam flatRam_coherent)
open Verif.Spec.Mos (Mem BusView Coherent)

section
variable {B R : Type} [Addressable B] {b : Build} {I : B → Mem → Prop} {c c' : Chip8 B R} {mem : Mem}
  {ops : List Opcode} {l : List (Env × Opcode)}

theorem pc_add (pc : Word) (m n : Nat) :
    pc + BitVec.ofNat 16 m + BitVec.ofNat 16 n = pc + BitVec.ofNat 16 (m + n) := by
  apply BitVec.eq_of_toNat_eq
  simp only [BitVec.toNat_add, BitVec.toNat_ofNat]
  omega

/-- C117: the same for the CHIP-8, in any worlds. -/
theorem C117_chip8_in_order (hI : Coherent b I) (hm : I c.address_space mem) (hw : WellFormed c)
    (hl : Listed mem c.pc ops) (hva : ∀ op ∈ ops, Valid op)
    (hc : ∀ op ∈ ops, transfersControl op = false) (hx : Does b c l c') (hlen : l.length ≤ ops.length)
    (hsp : ∀ k c1 op n j m, Does b c (l.take k) c1 → ops[k]? = some op → memSpan op = some n → j ≤ n →
      k < m → m < ops.length → iPlus c1 j ≠ c.pc + BitVec.ofNat 16 (2 * m) ∧
        iPlus c1 j ≠ c.pc + BitVec.ofNat 16 (2 * m + 1)) :
    l.map Prod.snd = ops.take l.length ∧ c'.pc = c.pc + BitVec.ofNat 16 (2 * l.length) ∧
    ∃ mem', I c'.address_space mem' ∧ Listed mem' c'.pc (ops.drop l.length) := by
  induction hx generalizing mem ops with
  | nil c =>
    refine ⟨by simp, by simp, mem, hm, ?_⟩
    simpa using hl
  | @cons c c1 c2 e op l hat hs _ ih =>
    cases ops with
    | nil => simp at hlen
    | cons o ops =>
      have hv := (hI _ _ hm).1
      obtain ⟨h1, h2⟩ := at_word hv hat
      have h3 : wordAt mem c.pc = encode o := by simpa using hl 0 o rfl
      have ho : op = o := C40_unambiguous _ _ h1 (hva o (by simp)) (h2.symm.trans h3)
      subst ho
      have hpc : c1.pc = c.pc + BitVec.ofNat 16 2 := by
        have hct := hc op (by simp)
        have := C41_plain hat hv hw (by cases op <;> exact hct) hs
        apply BitVec.eq_of_toNat_eq
        rw [this, BitVec.toNat_add]
        simp
      obtain ⟨m1, g1, g2⟩ := C61_memory hI hm hat hw hs
      have hl1 : Listed m1 c1.pc ops := by
        intro k o hk
        have hk' : k < ops.length := by
          apply Classical.byContradiction
          intro hn
          rw [List.getElem?_eq_none (by omega)] at hk
          cases hk
        have hold := hl (k + 1) o (by simpa using hk)
        rw [hpc, pc_add]
        rw [Nat.mul_succ, Nat.add_comm] at hold
        rw [← hold]
        have e1 : c.pc + BitVec.ofNat 16 (2 + 2 * k) + 1 = c.pc + BitVec.ofNat 16 (2 + 2 * k + 1) :=
          pc_add _ _ 1
        unfold wordAt
        rw [e1, g2 _ fun n j h h' => ?_, g2 _ fun n j h h' => ?_]
        · have := (hsp 0 c op n j (k + 1) (.nil c) rfl h h' (by omega) (by simpa using hk')).2
          rw [Nat.mul_succ, Nat.add_comm (2 * k) 2] at this
          exact this.symm
        · have := (hsp 0 c op n j (k + 1) (.nil c) rfl h h' (by omega) (by simpa using hk')).1
          rw [Nat.mul_succ, Nat.add_comm (2 * k) 2] at this
          exact this.symm
      obtain ⟨r1, r2, r3⟩ := ih g1 (wellFormed_step hat hv hw hs) hl1
        (fun o h => hva o (List.mem_cons_of_mem _ h)) (fun o h => hc o (List.mem_cons_of_mem _ h))
        (by simpa using hlen) fun k c3 o n j m hd hk hn hj hkm hm' => by
          have := hsp (k + 1) c3 o n j (m + 1) (.cons hat hs hd) (by simpa using hk) hn hj (by omega)
            (by simpa using hm')
          rw [hpc, pc_add, pc_add]
          rwa [Nat.mul_succ, Nat.add_comm (2 * m) 2] at this
      refine ⟨by simp [r1], ?_, by simpa using r3⟩
      rw [r2, hpc, pc_add, List.length_cons, Nat.mul_succ, Nat.add_comm 2]

/-- C117: no prefetch on the CHIP-8. The next instruction is the one memory holds after the stores of this
one. -/
theorem C117_chip8_no_prefetch {c1 : Chip8 B R} {e : Env} {op op' : Opcode} (hI : Coherent b I)
    (hm : I c.address_space mem) (hw : WellFormed c) (hat : At b c op) (hs : StepsTo b e c c1)
    (hat' : At b c1 op') :
    ∃ mem', I c1.address_space mem' ∧
      (∀ a, (∀ n k, memSpan op = some n → k ≤ n → a ≠ iPlus c k) → mem' a = mem a) ∧
      Valid op' ∧ wordAt mem' c1.pc = encode op' := by
  obtain ⟨m1, g1, g2⟩ := C61_memory hI hm hat hw hs
  exact ⟨m1, g1, g2, at_word (hI _ _ g1).1 hat'⟩
end

/-! ### Concrete cases -/

/-- The hypotheses of `C117_chip8_in_order`: three instructions, the last of which stores. -/
example : (after1 .debug ⟨0, 0, 0, 0⟩ twoRegs2).pc = 0x206 := by
  have h0 : At .debug twoRegs (.LdImmediate .V1 5) :=
    (C40_fetch (view _ _) (by decide +kernel) _).2 ⟨trivial, by decide +kernel⟩
  have h1 : At .debug twoRegs1 (.Or .V2 .V1) :=
    (C40_fetch (view _ _) (by decide +kernel) _).2 ⟨trivial, by decide +kernel⟩
  have h2 : At .debug twoRegs2 (.LdBcd .V2) :=
    (C40_fetch (view _ _) (by decide +kernel) _).2 ⟨trivial, by decide +kernel⟩
  have hx : Does .debug twoRegs [(⟨0, 0, 0, 0⟩, .LdImmediate .V1 5), (⟨0, 0, 0, 0⟩, .Or .V2 .V1),
      (⟨0, 0, 0, 0⟩, .LdBcd .V2)] (after1 .debug ⟨0, 0, 0, 0⟩ twoRegs2) :=
    .cons (c' := twoRegs1) h0 (steps_after1 (by decide +kernel))
      (.cons (c' := twoRegs2) h1 (steps_after1 (by decide +kernel))
        (.cons h2 (steps_after1 (by decide +kernel)) (.nil _)))
  obtain ⟨-, h, -⟩ := C117_chip8_in_order (flatRam_coherent _) (mem := twoRegs.address_space.mem) rfl
    ⟨rfl, rfl⟩ (ops := [.LdImmediate .V1 5, .Or .V2 .V1, .LdBcd .V2])
    (by
      intro k op hk
      match k, hk with
      | 0, hk | 1, hk | 2, hk => cases hk; decide +kernel
      | k + 3, hk => cases hk)
    (fun op h => by
      simp only [List.mem_cons, List.not_mem_nil, or_false] at h
      rcases h with rfl | rfl | rfl <;> trivial)
    (by decide) hx (by decide)
    (by
      intro k c1 op n j m _ hk hs _ hkm hm
      match k, hk with
      | 0, hk | 1, hk => cases hk; cases hs
      | 2, hk => exact absurd (Nat.lt_of_le_of_lt hkm hm) (by simp)
      | k + 3, hk => cases hk)
  exact h

/-- `LD [I], V0` with I at the byte after it and V0 = 0: the instruction that follows, `LD V1, 0xe0`, is
changed to `CLS` before it is executed. -/
def chip8ChangesItself : Chip8 FlatRam Unit :=
  { sample with
    i := 0x202
    gp_registers := sample.gp_registers.setIfInBounds 0 0
    address_space := ⟨fun a => if a = 0x200 then 0xf0 else if a = 0x201 then 0x55 else
      if a = 0x202 then 0x61 else if a = 0x203 then 0xe0 else 0⟩ }

example : At .debug chip8ChangesItself (.StoreRegistersToMemory .V0) ∧
    At .debug (after1 .debug ⟨0, 0, 0, 0⟩ chip8ChangesItself) .Cls :=
  ⟨(C40_fetch (view _ _) (by decide +kernel) _).2 ⟨trivial, by decide +kernel⟩,
    (C40_fetch (view _ _) (by decide +kernel) _).2 ⟨trivial, by decide +kernel⟩⟩

end Verif.Props.Chip8
