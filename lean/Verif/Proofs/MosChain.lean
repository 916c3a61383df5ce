import Verif.Proofs.MosProgram
import Verif.Proofs.Multibyte

/-!
# Executing the multi-byte chains
-/

namespace Verif.Mos

open Verif Verif.Spec.Mos

theorem toNat_word_lt (n : Nat) (h : n < 65536) : (word n).toNat = n := by
  rw [toNat_word]; omega

theorem word_add (n k : Nat) : word n + BitVec.ofNat 16 k = word (n + k) := by
  apply BitVec.eq_of_toNat_eq
  rw [BitVec.toNat_add, toNat_word, toNat_word, BitVec.toNat_ofNat]; omega

theorem word_lohi (w : Nat) : u16FromLeBytes (byte w) (byte (w / 256)) = word w := by
  apply BitVec.eq_of_toNat_eq
  rw [toNat_u16FromLeBytes, toNat_word, toNat_byte, toNat_byte]; omega

theorem codeAt_append {mem : Mem} {p : Nat} {c d : List Byte} (h : CodeAt mem p (c ++ d)) :
    CodeAt mem p c ∧ CodeAt mem (p + c.length) d := by
  constructor
  · intro k hk
    have := h k (by rw [List.length_append]; omega)
    rwa [List.getElem_append_left hk] at this
  · intro k hk
    have := h (c.length + k) (by rw [List.length_append]; omega)
    rw [List.getElem_append_right (by omega)] at this
    simp only [Nat.add_sub_cancel_left] at this
    rw [Nat.add_assoc]; exact this

theorem codeAt_upd {mem : Mem} {p : Nat} {c : List Byte} (h : CodeAt mem p c) {x : Word} (v : Byte)
    (hx : ∀ k, k < c.length → x ≠ word (p + k)) : CodeAt (upd mem x v) p c := by
  intro k hk
  show (if word (p + k) = x then v else mem (word (p + k))) = _
  rw [if_neg (fun e => hx k hk e.symm)]
  exact h k hk

theorem code3 {mem : Mem} {p : Nat} {o1 o2 o3 : Byte} (h : CodeAt mem p [o1, o2, o3]) :
    mem (word p) = o1 ∧ mem (word p + 1) = o2 ∧ mem (word p + 2) = o3 := by
  refine ⟨h 0 (by simp), ?_, ?_⟩
  · have := h 1 (by simp); rwa [← word_add] at this
  · have := h 2 (by simp); rwa [← word_add] at this

theorem chain_length (op : Byte) (n a c r : Nat) : (chain op n a c r).length = 9 * n := by
  induction n generalizing a c r with
  | zero => rfl
  | succ n ih => simp only [chain, op16, List.length_append, List.length_cons, List.length_nil, ih]; omega

/-- Memory after a chain: `f` gives result and carry of one byte. -/
def chainMem (f : Byte → Byte → Bool → Byte × Bool) : Nat → Nat → Nat → Nat → Bool → Mem → Mem
  | 0, _, _, _, _, mem => mem
  | n + 1, a, c, r, k, mem =>
    chainMem f n (a + 1) (c + 1) (r + 1) (f (mem (word a)) (mem (word c)) k).2
      (upd mem (word r) (f (mem (word a)) (mem (word c)) k).1)

section
variable {B : Type} [Addressable B] {b : Build} {I : B → Mem → Prop}

/-- What an instruction of the chain does to A and C. -/
def Does (op : Byte) (f : Byte → Byte → Bool → Byte × Bool) : Prop :=
  ∃ mn : Mnemonic, (∀ lo hi, ∃ i, Isa.parseInstruction op lo hi = some i ∧
      view i = (mn, .absolute (u16FromLeBytes lo hi))) ∧
    (∀ w, baseCycles mn (.absolute w) = 4) ∧
    ∀ (r : Regs) (mem : Mem) (w : Word), (codeEffect r mem mn (.absolute w)).writes = [] ∧
      ∃ p', (codeEffect r mem mn (.absolute w)).regs =
        { r with a := (f r.a (mem w) r.p.carry).1, pc := nextPc r (.absolute w), p := p' } ∧
        p'.carry = (f r.a (mem w) r.p.carry).2 ∧ p'.decimal = r.p.decimal ∧
        p'.interrupt_disable = r.p.interrupt_disable ∧ p'.brk = r.p.brk ∧ p'.unused = r.p.unused

theorem kept_trans {s s' s'' : Regs} (h : Kept s s') (h' : Kept s' s'') : Kept s s'' :=
  ⟨h'.x.trans h.x, h'.y.trans h.y, h'.sp.trans h.sp, h'.decimal.trans h.decimal,
    h'.interrupt.trans h.interrupt, h'.brk.trans h.brk, h'.unused.trans h.unused⟩

theorem chain_reaches (hI : Coherent b I) {W : Word → Prop} (hacc : AcceptsAt b I W) {op : Byte}
    {f : Byte → Byte → Bool → Byte × Bool} (hop : Does op f) (n : Nat) :
    ∀ (p a c r : Nat) (s : Regs) (mem : Mem), s.pc = word p → CodeAt mem p (chain op n a c r) →
    p + 9 * n ≤ 65532 → r + n ≤ 65536 → Apart r n p (9 * n) → (∀ x, InArea r n x → W x) →
    ∃ s', Reaches b I s mem (3 * n) (12 * n) s' (chainMem f n a c r s.p.carry mem) ∧
      s'.pc = word (p + 9 * n) ∧ Kept s s' := by
  induction n with
  | zero =>
    intro p a c r s mem hpc _ _ _ _ _
    exact ⟨s, .refl, hpc, ⟨rfl, rfl, rfl, rfl, rfl, rfl, rfl⟩⟩
  | succ n ih =>
    intro p a c r s mem hpc hcode hp hr hap hW
    obtain ⟨hc1, hrest⟩ := codeAt_append hcode
    obtain ⟨hc2, hrest⟩ := codeAt_append hrest
    obtain ⟨hc3, hrest⟩ := codeAt_append hrest
    change CodeAt mem (p + 3) (op16 op c) at hc2
    change CodeAt mem (p + 3 + 3) (op16 0x8d r) at hc3
    change CodeAt mem (p + 3 + 3 + 3) _ at hrest
    have hpcok : ∀ (t : Regs) (q : Nat), t.pc = word q → q < 65534 → PcOk b t := by
      intro t q ht hq
      refine .inr ?_
      rw [ht, toNat_word_lt q (by omega)]; exact hq
    -- LDA a
    obtain ⟨e1, e2, e3⟩ := code3 hc1
    have step1 := reaches_one (b := b) (I := I) (r := s) (mem := mem) hI hacc (mn := .Lda)
      (am := .absolute (word a)) (i := .LdaAbsolute (word a)) (hpcok s p hpc (by omega))
      (by rw [hpc, e1, e2, e3]; show some (InstructionVariant.LdaAbsolute _) = _; rw [word_lohi]) rfl trivial
      (fun w hw => by cases hw)
    -- the operation
    obtain ⟨mn, hparse, hcyc, heff⟩ := hop
    obtain ⟨i, hi, hview⟩ := hparse (byte c) (byte (c / 256))
    rw [word_lohi] at hview
    obtain ⟨f1, f2, f3⟩ := code3 hc2
    generalize hs1 : (codeEffect s mem .Lda (.absolute (word a))).regs = s1 at step1
    have hs1' : s1 = { s with
      a := mem (word a), p := setNZ s.p (mem (word a)), pc := nextPc s (.absolute (word a)) } := hs1.symm
    have hpc1 : s1.pc = word (p + 3) := by
      rw [hs1']
      show word (s.pc.toNat + 3) = _
      rw [hpc, toNat_word_lt p (by omega)]
    obtain ⟨hw2, p2, hreg2, hcar2, q1, q2, q3, q4⟩ := heff s1 mem (word c)
    have step2 := reaches_one (b := b) (I := I) (r := s1) (mem := mem) hI hacc (mn := mn)
      (am := .absolute (word c)) (i := i) (hpcok s1 _ hpc1 (by omega))
      (by rw [hpc1, f1, f2, f3]; exact hi) hview trivial (fun w hw => by rw [hw2] at hw; cases hw)
    rw [hw2] at step2
    generalize hs2 : (codeEffect s1 mem mn (.absolute (word c))).regs = s2 at step2 hreg2
    have hpc2 : s2.pc = word (p + 3 + 3) := by
      rw [hreg2]
      show word (s1.pc.toNat + 3) = _
      rw [hpc1, toNat_word_lt _ (by omega)]
    -- STA r
    obtain ⟨g1, g2, g3⟩ := code3 hc3
    have step3 := reaches_one (b := b) (I := I) (r := s2) (mem := mem) hI hacc (mn := .Sta)
      (am := .absolute (word r)) (i := .StaAbsolute (word r)) (hpcok s2 _ hpc2 (by omega))
      (by rw [hpc2, g1, g2, g3]; show some (InstructionVariant.StaAbsolute _) = _; rw [word_lohi]) rfl trivial
      (fun w hw => by
        change w ∈ [(word r, s2.a)] at hw
        rw [List.mem_singleton] at hw
        subst hw
        refine hW _ ⟨?_, ?_⟩ <;> · show _ ; rw [toNat_word_lt r (by omega)]; omega)
    change Reaches b I s2 mem 1 _ { s2 with pc := nextPc s2 (.absolute (word r)) }
      (upd mem (word r) s2.a) at step3
    have hk : s1.p.carry = s.p.carry := by rw [hs1']; rfl
    have ha1 : s1.a = mem (word a) := by rw [hs1']
    have ha2 : s2.a = (f (mem (word a)) (mem (word c)) s.p.carry).1 := by rw [hreg2, ha1, hk]
    have hk2 : s2.p.carry = (f (mem (word a)) (mem (word c)) s.p.carry).2 := by
      rw [hreg2]; show p2.carry = _; rw [hcar2, ha1, hk]
    have hcode' : CodeAt (upd mem (word r) s2.a) (p + 3 + 3 + 3) (chain op n (a + 1) (c + 1) (r + 1)) := by
      refine codeAt_upd hrest _ ?_
      intro k hk e
      rw [chain_length] at hk
      have := congrArg BitVec.toNat e
      rw [toNat_word_lt r (by omega), toNat_word_lt _ (by omega)] at this
      rcases hap with h | h <;> omega
    obtain ⟨s', hreach, hpc', hkept⟩ := ih (p + 3 + 3 + 3) (a + 1) (c + 1) (r + 1)
      { s2 with pc := nextPc s2 (.absolute (word r)) } _ (by
        show word (s2.pc.toNat + 3) = _
        rw [hpc2, toNat_word_lt _ (by omega)]) hcode' (by omega) (by omega)
      (by rcases hap with h | h
          · exact .inl (by omega)
          · exact .inr (by omega))
      (fun x hx => hW x ⟨by have := hx.1; omega, by have := hx.2; omega⟩)
    refine ⟨s', ?_, ?_, ?_⟩
    · have := ((step1.trans step2).trans step3).trans hreach
      have e : chainMem f (n + 1) a c r s.p.carry mem =
          chainMem f n (a + 1) (c + 1) (r + 1) s2.p.carry (upd mem (word r) s2.a) := by
        rw [ha2, hk2]; rfl
      rw [e]
      have c1 : 3 * (n + 1) = 1 + 1 + 1 + 3 * n := by omega
      have c2 : 12 * (n + 1) = baseCycles .Lda (.absolute (word a)) + codePenalty s mem .Lda (.absolute (word a)) +
          (baseCycles mn (.absolute (word c)) + codePenalty s1 mem mn (.absolute (word c))) +
          (baseCycles .Sta (.absolute (word r)) + codePenalty s2 mem .Sta (.absolute (word r))) + 12 * n := by
        rw [hcyc]
        show _ = 4 + 0 + (4 + 0) + (4 + 0) + 12 * n
        omega
      rw [c1, c2]
      exact this
    · rw [hpc']; congr 1; omega
    · refine kept_trans ?_ hkept
      constructor
      · show s2.x = _; rw [hreg2, hs1']
      · show s2.y = _; rw [hreg2, hs1']
      · show s2.sp = _; rw [hreg2, hs1']
      · show s2.p.decimal = _; rw [hreg2]; show p2.decimal = _; rw [q1, hs1']; rfl
      · show s2.p.interrupt_disable = _; rw [hreg2]; show p2.interrupt_disable = _; rw [q2, hs1']; rfl
      · show s2.p.brk = _; rw [hreg2]; show p2.brk = _; rw [q3, hs1']; rfl
      · show s2.p.unused = _; rw [hreg2]; show p2.unused = _; rw [q4, hs1']; rfl

end

/-- The emulator's ADC on one byte. -/
def adcByte (x v : Byte) (_ : Bool) : Byte × Bool :=
  (byte (x.toNat + v.toNat), decide (256 ≤ x.toNat + v.toNat))

/-- The emulator's SBC on one byte. -/
def sbcByte (x v : Byte) (k : Bool) : Byte × Bool :=
  ((subWithBorrow x v k).1, (subWithBorrow x v k).2.1 && !(decide (v.toNat = 0) && k))

theorem does_adc : Does 0x6d adcByte := by
  refine ⟨.Adc, fun lo hi => ⟨_, rfl, rfl⟩, fun _ => rfl, fun r mem w => ⟨rfl, ?_⟩⟩
  exact ⟨_, adc_regs r (.absolute w) (mem w), rfl, rfl, rfl, rfl, rfl⟩

theorem does_sbc : Does 0xed sbcByte := by
  refine ⟨.Sbc, fun lo hi => ⟨_, rfl, rfl⟩, fun _ => rfl, fun r mem w => ⟨rfl, ?_⟩⟩
  exact ⟨_, sbc_regs r (.absolute w) (mem w), rfl, rfl, rfl, rfl, rfl⟩

/-- The carry before byte `j`. -/
def carryAt (f : Byte → Byte → Bool → Byte × Bool) (mem : Mem) : Nat → Nat → Nat → Bool → Bool
  | 0, _, _, k => k
  | j + 1, a, c, k => carryAt f mem j (a + 1) (c + 1) (f (mem (word a)) (mem (word c)) k).2

theorem carryAt_succ (f : Byte → Byte → Bool → Byte × Bool) (mem : Mem) (j a c : Nat) (k : Bool) :
    carryAt f mem (j + 1) a c k =
      (f (mem (word (a + j))) (mem (word (c + j))) (carryAt f mem j a c k)).2 := by
  induction j generalizing a c k with
  | zero => rfl
  | succ j ih =>
    rw [carryAt, ih, Nat.add_right_comm a 1 j, Nat.add_right_comm c 1 j]; rfl

theorem carryAt_congr (f : Byte → Byte → Bool → Byte × Bool) {mem mem' : Mem} (j a c : Nat) (k : Bool)
    (h : ∀ i, i < j → mem' (word (a + i)) = mem (word (a + i)) ∧ mem' (word (c + i)) = mem (word (c + i))) :
    carryAt f mem' j a c k = carryAt f mem j a c k := by
  induction j with
  | zero => rfl
  | succ j ih =>
    rw [carryAt_succ, carryAt_succ, ih (fun i hi => h i (by omega)), (h j (by omega)).1, (h j (by omega)).2]

theorem chainMem_outside (f : Byte → Byte → Bool → Byte × Bool) (n : Nat) :
    ∀ (a c r : Nat) (k : Bool) (mem : Mem) (x : Word), r + n ≤ 65536 → ¬ InArea r n x →
      chainMem f n a c r k mem x = mem x := by
  induction n with
  | zero => intros; rfl
  | succ n ih =>
    intro a c r k mem x hr hx
    rw [chainMem, ih _ _ _ _ _ _ (by omega) (fun h => hx ⟨by have := h.1; omega, by have := h.2; omega⟩)]
    show (if x = word r then _ else mem x) = mem x
    rw [if_neg]
    intro e
    have := congrArg BitVec.toNat e
    rw [toNat_word_lt r (by omega)] at this
    exact hx ⟨by omega, by omega⟩

theorem chainMem_result (f : Byte → Byte → Bool → Byte × Bool) (n : Nat) :
    ∀ (a c r : Nat) (k : Bool) (mem : Mem) (j : Nat), r + n ≤ 65536 → a + n ≤ 65536 → c + n ≤ 65536 →
      Apart r n a n → Apart r n c n → j < n →
      chainMem f n a c r k mem (word (r + j)) =
        (f (mem (word (a + j))) (mem (word (c + j))) (carryAt f mem j a c k)).1 := by
  induction n with
  | zero => intro a c r k mem j _ _ _ _ _ hj; omega
  | succ n ih =>
    intro a c r k mem j hr ha hc h1 h2 hj
    have hup : ∀ (v : Byte) i, i < n + 1 → upd mem (word r) v (word (a + i)) = mem (word (a + i)) ∧
        upd mem (word r) v (word (c + i)) = mem (word (c + i)) := by
      intro v i hi
      constructor
      · show (if _ = _ then _ else _) = _
        rw [if_neg]
        intro e
        have := congrArg BitVec.toNat e
        rw [toNat_word_lt r (by omega), toNat_word_lt _ (by omega)] at this
        rcases h1 with h | h <;> omega
      · show (if _ = _ then _ else _) = _
        rw [if_neg]
        intro e
        have := congrArg BitVec.toNat e
        rw [toNat_word_lt r (by omega), toNat_word_lt _ (by omega)] at this
        rcases h2 with h | h <;> omega
    rw [chainMem]
    cases j with
    | zero =>
      rw [chainMem_outside _ _ _ _ _ _ _ _ (by omega) (fun h => by
        have := h.1
        rw [toNat_word_lt _ (by omega)] at this
        omega)]
      show (if word r = word r then _ else _) = _
      rw [if_pos rfl]; rfl
    | succ j =>
      have e := ih (a + 1) (c + 1) (r + 1) (f (mem (word a)) (mem (word c)) k).2
        (upd mem (word r) (f (mem (word a)) (mem (word c)) k).1) j (by omega) (by omega) (by omega)
        (by rcases h1 with h | h
            · exact .inl (by omega)
            · exact .inr (by omega))
        (by rcases h2 with h | h
            · exact .inl (by omega)
            · exact .inr (by omega)) (by omega)
      have ea : a + 1 + j = a + (j + 1) := by omega
      have ec : c + 1 + j = c + (j + 1) := by omega
      have er : r + 1 + j = r + (j + 1) := by omega
      rw [ea, ec, er, (hup _ (j + 1) (by omega)).1, (hup _ (j + 1) (by omega)).2] at e
      rw [e, carryAt_congr f (mem := mem) j _ _ _ (fun i hi => by
        have e1 : a + 1 + i = a + (i + 1) := by omega
        have e2 : c + 1 + i = c + (i + 1) := by omega
        rw [e1, e2]
        exact hup _ (i + 1) (by omega))]
      rfl

/-- The bytes of a number in memory. -/
def digits (mem : Mem) (a : Nat) (j : Nat) : Nat := (mem (word (a + j))).toNat

theorem number_eq (mem : Mem) (a n : Nat) : number mem a n = Multibyte.val (digits mem a) n := by
  induction n with
  | zero => rfl
  | succ n ih => rw [number, Multibyte.val, ih]; rfl

theorem digits_lt (mem : Mem) (a j : Nat) : digits mem a j < 256 := (mem (word (a + j))).isLt

theorem val_congr {A C : Nat → Nat} (n : Nat) (h : ∀ j, j < n → A j = C j) :
    Multibyte.val A n = Multibyte.val C n := by
  induction n with
  | zero => rfl
  | succ n ih => rw [Multibyte.val, Multibyte.val, ih (fun j hj => h j (by omega)), h n (by omega)]

/-- `CLC` or `SEC` and a chain. -/
theorem program_reaches {B : Type} [Addressable B] {b : Build} {I : B → Mem → Prop} (hI : Coherent b I)
    {W : Word → Prop} (hacc : AcceptsAt b I W) {op first : Byte} {k : Bool}
    {f : Byte → Byte → Bool → Byte × Bool} (hop : Does op f)
    (hfirst : ∃ i mn, (∀ x y, Isa.parseInstruction first x y = some i) ∧ view i = (mn, .implied) ∧
      baseCycles mn .implied = 2 ∧ (∀ r mem, codePenalty r mem mn .implied = 0) ∧
      ∀ r mem, codeEffect r mem mn .implied =
        { regs := { r with pc := nextPc r .implied, p := { r.p with carry := k } } })
    {n p a c r : Nat} {s : Regs} {mem : Mem} (hpc : s.pc = word p)
    (hcode : CodeAt mem p (first :: chain op n a c r)) (hl : Layout p n a c r)
    (hW : ∀ x, InArea r n x → W x) :
    ∃ s' mem', Reaches b I s mem (3 * n + 1) (12 * n + 2) s' mem' ∧ s'.pc = word (p + (9 * n + 1)) ∧
      Kept s s' ∧ (∀ x, ¬ InArea r n x → mem' x = mem x) ∧
      ∀ j, j < n → mem' (word (r + j)) =
        (f (mem (word (a + j))) (mem (word (c + j))) (carryAt f mem j a c k)).1 := by
  obtain ⟨i, mn, hp, hv, hb, hpen, heff⟩ := hfirst
  have hx := hl.code
  have e1 : mem (word p) = first := hcode 0 (by simp)
  have hrest : CodeAt mem (p + 1) (chain op n a c r) := by
    intro j hj
    have := hcode (j + 1) (by simp; omega)
    rw [Nat.add_assoc, Nat.add_comm 1 j]; exact this
  have hpcok : PcOk b s := .inr (by rw [hpc, toNat_word_lt p (by omega)]; omega)
  have step := reaches_one (b := b) (I := I) (r := s) (mem := mem) hI hacc (mn := mn) (am := .implied)
    hpcok (by rw [hpc, e1]; exact hp _ _) hv trivial (fun w hw => by rw [heff] at hw; cases hw)
  rw [heff, hb, hpen] at step
  obtain ⟨s', h1, h2, h3⟩ := chain_reaches hI hacc hop n (p + 1) a c r
    { s with pc := nextPc s .implied, p := { s.p with carry := k } } mem
    (by show word (s.pc.toNat + 1) = _; rw [hpc, toNat_word_lt p (by omega)])
    hrest (by omega) hl.result
    (by rcases hl.safe with h | h
        · exact .inl (by omega)
        · exact .inr (by omega)) hW
  refine ⟨s', chainMem f n a c r k mem, ?_, ?_, ?_, ?_, ?_⟩
  · have := step.trans h1
    have c1 : 3 * n + 1 = 1 + 3 * n := by omega
    have c2 : 12 * n + 2 = 2 + 0 + 12 * n := by omega
    rw [c1, c2]; exact this
  · rw [h2]; congr 1; omega
  · exact ⟨h3.x, h3.y, h3.sp, h3.decimal, h3.interrupt, h3.brk, h3.unused⟩
  · exact fun x hx => chainMem_outside f n a c r k mem x hl.result hx
  · exact fun j hj => chainMem_result f n a c r k mem j hl.result hl.left hl.right hl.safeLeft hl.safeRight hj

end Verif.Mos
