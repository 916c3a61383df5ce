import Verif.Spec.Print
import Verif.Proofs.MosCounter
import Verif.Props.Mos.Devices

/-!
# C149: a program that prints a text prints exactly the text
-/

namespace Verif.Props

open Verif Verif.Mos Verif.Spec Verif.Spec.Mos

section
variable {B : Type} [Addressable B] {b : Build} {J : B → Prop} {mem : Mem} {p t port : Nat}

/-- Every bus of the kind `J` shows the memory `mem`. -/
def ShowsMem (b : Build) (J : B → Prop) (mem : Mem) : Prop := ∀ bus, J bus → BusView b bus mem

/-- Every bus of the kind `J` takes any byte at `a` and stays of that kind. -/
def TakesAt (b : Build) (J : B → Prop) (a : Word) : Prop :=
  ∀ bus, J bus → ∀ v, ∃ r bus', Addressable.write b bus a v = .ok (.ok r, bus') ∧ J bus'

/-- From registers `r`, on a bus of the kind `J`, `k` instructions of `n` cycles lead to `r'` and make
the stores `ws`. -/
def Tells (b : Build) (J : B → Prop) (r : Regs) (ws : List (Word × Byte)) (k n : Nat) (r' : Regs) : Prop :=
  ∀ c : Mos6502 B, regs c = r → J c.address_map →
    ∃ l d, Instructions b c l d ∧ l.length = k ∧ totalCycles l = n ∧ programStores l = ws ∧ regs d = r' ∧
      J d.address_map

theorem Tells.refl (r : Regs) : Tells b J r [] 0 0 r :=
  fun c hr hJ => ⟨[], c, .nil _, rfl, rfl, rfl, hr, hJ⟩

theorem Tells.trans {r r' r'' : Regs} {ws ws' : List (Word × Byte)} {k n k' n' : Nat}
    (h : Tells b J r ws k n r') (h' : Tells b J r' ws' k' n' r'') :
    Tells b J r (ws ++ ws') (k + k') (n + n') r'' := by
  intro c hr hJ
  obtain ⟨l, d, h1, h2, h3, h4, h5, h6⟩ := h c hr hJ
  obtain ⟨l', e, q1, q2, q3, q4, q5, q6⟩ := h' d h5 h6
  refine ⟨l ++ l', e, instructions_append h1 q1, by rw [List.length_append, h2, q2],
    by rw [Mos.totalCycles_append, h3, q3], ?_, q5, q6⟩
  unfold programStores at h4 q4 ⊢
  rw [List.flatMap_append, h4, q4]

/-- One instruction that stores nothing. -/
theorem tells_quiet (hJ : ShowsMem b J mem) {r : Regs} {i : InstructionVariant} {mn : Mnemonic} {am : AddrMode} {q : Nat}
    (hpc : r.pc = word q) (hq : q < 65534)
    (hp : Isa.parseInstruction (mem (word q)) (mem (word q + 1)) (mem (word q + 2)) = some i)
    (hi : view i = (mn, am)) (hok : AddrOk b r mem am) (hw : (codeEffect r mem mn am).writes = []) :
    Tells b J r [] 1 (baseCycles mn am + codePenalty r mem mn am) (codeEffect r mem mn am).regs := by
  intro c hr hc
  subst hr
  have hv := hJ _ hc
  have hpc' : c.pc = word q := hpc
  have hat : At b c i := by
    unfold At
    rw [fetch_eq hv, hpc', toNat_word_lt q (by omega), if_neg (by omega), hp]
  have hn := step_ok hat hv (by rw [hi]; exact hok)
  rw [hi, hw] at hn
  refine ⟨_, _, .cons hn (.nil _), rfl, ?_, ?_, rfl, hc⟩
  · simp [totalCycles, code]
  · rw [programStores_cons, stores_code]
    show (codeEffect _ _ _ _).writes ++ [] = _
    rw [hw]; rfl

/-- `STA port`. -/
theorem tells_sta (hJ : ShowsMem b J mem) (ht : TakesAt b J (word port)) {r : Regs} {q : Nat}
    (hpc : r.pc = word q) (hq : q < 65534) (hc : CodeAt mem q (op16 0x8d port)) :
    Tells b J r [(word port, r.a)] 1 4 { r with pc := word (q + 3) } := by
  obtain ⟨e1, e2, e3⟩ := code3 hc
  intro c hr hc
  subst hr
  have hv := hJ _ hc
  have hpc' : c.pc = word q := hpc
  have hat : At b c (.StaAbsolute (word port)) := by
    unfold At
    rw [fetch_eq hv, hpc', toNat_word_lt q (by omega), if_neg (by omega), e1, e2, e3]
    show Except.ok (InstructionVariant.StaAbsolute _) = _
    rw [word_lohi]
  have hn := step_ok hat hv trivial
  obtain ⟨r, bus', hwr, hJ'⟩ := ht _ hc c.acc
  have hwa : writeAll b c.address_map (codeEffect (regs c) mem (view (.StaAbsolute (word port))).1
      (view (.StaAbsolute (word port))).2).writes = .ok bus' := by
    show writeAll b c.address_map [(word port, c.acc)] = _
    simp only [writeAll, hwr]
  rw [hwa] at hn
  refine ⟨_, _, .cons hn (.nil _), rfl, rfl, ?_, ?_, hJ'⟩
  · rw [programStores_cons, stores_code]; rfl
  · show ({ regs c with pc := nextPc (regs c) (.absolute (word port)) } : Regs) = _
    rw [nextPc_of hpc hq]; rfl

theorem printer_parts (hc : CodeAt mem p (printer p t port)) :
    CodeAt mem p [0xa2, 0x00] ∧ CodeAt mem (p + 2) (op16 0xbd t) ∧ CodeAt mem (p + 5) [0xf0, 0x09] ∧
    CodeAt mem (p + 7) (op16 0x8d port) ∧ mem (word (p + 10)) = 0xe8 ∧ CodeAt mem (p + 11) (op16 0x4c (p + 2)) := by
  obtain ⟨h1, hc⟩ := codeAt_append hc
  obtain ⟨h2, hc⟩ := codeAt_append hc
  obtain ⟨h3, hc⟩ := codeAt_append hc
  obtain ⟨h4, hc⟩ := codeAt_append hc
  obtain ⟨h5, h6⟩ := codeAt_append hc
  exact ⟨h1, h2, h3, h4, h5 0 (by simp), h6⟩

/-- `LDA t,X`. -/
theorem tells_lda (hJ : ShowsMem b J mem) {r : Regs} {q : Nat} (hpc : r.pc = word q) (hq : q < 65534)
    (ht : t < 65536) (hc : CodeAt mem q (op16 0xbd t)) :
    Tells b J r [] 1 (4 + crosses t (word (t + r.x.toNat)).toNat)
      { r with a := mem (word (t + r.x.toNat)), p := setNZ r.p (mem (word (t + r.x.toNat))), pc := word (q + 3) } := by
  obtain ⟨e1, e2, e3⟩ := code3 hc
  have := tells_quiet (b := b) (r := r) (i := .LdaAbsoluteIndexedWithX (word t)) (mn := .Lda)
    (am := .absoluteX (word t)) hJ hpc hq
    (by rw [e1, e2, e3]
        show some (InstructionVariant.LdaAbsoluteIndexedWithX _) = _
        rw [word_lohi]) rfl trivial rfl
  have et : baseCycles .Lda (.absoluteX (word t)) + codePenalty r mem .Lda (.absoluteX (word t)) =
      4 + crosses t (word (t + r.x.toNat)).toNat := by
    show 4 + crosses (word t).toNat (word ((word t).toNat + r.x.toNat)).toNat = _
    rw [toNat_word_lt _ ht]
  have er : (codeEffect r mem .Lda (.absoluteX (word t))).regs =
      { r with a := mem (word (t + r.x.toNat)), p := setNZ r.p (mem (word (t + r.x.toNat))), pc := word (q + 3) } := by
    show ({ r with
      a := mem (word ((word t).toNat + r.x.toNat))
      p := setNZ r.p (mem (word ((word t).toNat + r.x.toNat)))
      pc := nextPc r (.absoluteX (word t)) } : Regs) = _
    rw [toNat_word_lt _ ht, nextPc_of hpc hq]; rfl
  rwa [et, er] at this

/-- `BEQ end`. -/
theorem tells_beq (hJ : ShowsMem b J mem) {r : Regs} {q : Nat} (hpc : r.pc = word q) (hq : q + 9 < 65536)
    (hc : CodeAt mem q [0xf0, 0x09]) :
    (r.p.zero = false → Tells b J r [] 1 2 { r with pc := word (q + 2) }) ∧
    (r.p.zero = true → Tells b J r [] 1 (3 + crosses (q + 9) q) { r with pc := word (q + 9) }) := by
  obtain ⟨h0, h1⟩ := code2 hc
  have := tells_quiet (b := b) (r := r) (i := .BeqRelative 0x09) (mn := .Beq)
    (am := .relative 0x09) hJ hpc (by omega) (by rw [h0, h1]; rfl) rfl trivial rfl
  constructor
  · intro hz
    have e : (codeEffect r mem .Beq (.relative 0x09)).regs = { r with pc := word (q + 2) } := by
      show ({ r with pc := if r.p.zero then codeTarget r.pc 0x09 else nextPc r (.relative 0x09) } : Regs) = _
      rw [hz, nextPc_of hpc (by omega)]; rfl
    have c : codePenalty r mem .Beq (.relative 0x09) = 0 := by
      show (if some r.p.zero = some true then _ else 0) = 0
      rw [hz]; rfl
    rw [e, c] at this
    exact this
  · intro hz
    have et : codeTarget r.pc 0x09 = word (q + 9) := by rw [hpc, codeTarget_of (by decide)]; rfl
    have e : (codeEffect r mem .Beq (.relative 0x09)).regs = { r with pc := word (q + 9) } := by
      show ({ r with pc := if r.p.zero then codeTarget r.pc 0x09 else nextPc r (.relative 0x09) } : Regs) = _
      rw [hz, et]; rfl
    have c : codePenalty r mem .Beq (.relative 0x09) = 1 + crosses (q + 9) q := by
      show (if some r.p.zero = some true then 1 + crosses (codeTarget r.pc 0x09).toNat r.pc.toNat else 0) = _
      rw [hz, if_pos rfl, et, hpc, toNat_word_lt _ hq, toNat_word_lt _ (by omega)]
    rw [e, c] at this
    have e3 : baseCycles .Beq (.relative 0x09) + (1 + crosses (q + 9) q) = 3 + crosses (q + 9) q := by
      show 2 + _ = _
      omega
    rwa [e3] at this

/-- One byte that is not the end. -/
theorem tells_byte (hJ : ShowsMem b J mem) (hport : TakesAt b J (word port)) (ht : t < 65536)
    (hc : CodeAt mem p (printer p t port)) (hp : p + 14 < 65536) {r : Regs} (hpc : r.pc = word (p + 2))
    (hne : mem (word (t + r.x.toNat)) ≠ 0) :
    ∃ r', Tells b J r [(word port, mem (word (t + r.x.toNat)))] 5 (15 + crosses t (word (t + r.x.toNat)).toNat) r' ∧
      r'.pc = word (p + 2) ∧ r'.x = r.x + 1 ∧ r'.y = r.y ∧ r'.sp = r.sp := by
  obtain ⟨-, c2, c3, c4, c5, c6⟩ := printer_parts hc
  have s1 := tells_lda hJ hpc (by omega) ht c2
  have s2 := (tells_beq (r := { r with a := mem (word (t + r.x.toNat)), p := setNZ r.p (mem (word (t + r.x.toNat))),
                                       pc := word (p + 2 + 3) }) hJ rfl (by omega) c3).1
    (decide_eq_false fun h => hne (BitVec.eq_of_toNat_eq h))
  have s3 := tells_sta (r := { r with a := mem (word (t + r.x.toNat)), p := setNZ r.p (mem (word (t + r.x.toNat))),
                                      pc := word (p + 5 + 2) }) hJ hport rfl (by omega) c4
  have s4 := tells_quiet (b := b) (r := { r with a := mem (word (t + r.x.toNat)),
                                                 p := setNZ r.p (mem (word (t + r.x.toNat))), pc := word (p + 7 + 3) })
    (i := .InxImplied) (mn := .Inx) (am := .implied) hJ rfl (by omega)
    (by rw [show p + 7 + 3 = p + 10 by omega, c5]; rfl) rfl trivial rfl
  obtain ⟨e1, e2, e3⟩ := code3 c6
  have s5 := tells_quiet (b := b) (r := { r with
      a := mem (word (t + r.x.toNat))
      x := r.x + 1
      p := setNZ (setNZ r.p (mem (word (t + r.x.toNat)))) (r.x + 1)
      pc := word (p + 11) })
    (i := .JmpAbsolute (word (p + 2))) (mn := .Jmp) (am := .absolute (word (p + 2))) hJ rfl (by omega)
    (by rw [e1, e2, e3]
        show some (InstructionVariant.JmpAbsolute _) = _
        rw [word_lohi]) rfl trivial rfl
  have e4 : (codeEffect { r with a := mem (word (t + r.x.toNat)),
                                 p := setNZ r.p (mem (word (t + r.x.toNat))), pc := word (p + 7 + 3) } mem .Inx
      .implied).regs = { r with
        a := mem (word (t + r.x.toNat))
        x := r.x + 1
        p := setNZ (setNZ r.p (mem (word (t + r.x.toNat)))) (r.x + 1)
        pc := word (p + 11) } := by
    show ({ r with
        a := mem (word (t + r.x.toNat))
        x := r.x + 1
        p := setNZ (setNZ r.p (mem (word (t + r.x.toNat)))) (r.x + 1)
        pc := nextPc { r with a := mem (word (t + r.x.toNat)),
                              p := setNZ r.p (mem (word (t + r.x.toNat))), pc := word (p + 7 + 3) } .implied } : Regs) = _
    rw [nextPc_of (q := p + 7 + 3) rfl (by omega)]; rfl
  rw [e4] at s4
  have s := s1.trans (s2.trans (s3.trans (s4.trans s5)))
  have en : 4 + crosses t (word (t + r.x.toNat)).toNat + (2 + (4 + (baseCycles .Inx .implied + codePenalty
      { r with a := mem (word (t + r.x.toNat)), p := setNZ r.p (mem (word (t + r.x.toNat))), pc := word (p + 7 + 3) }
      mem .Inx .implied + (baseCycles .Jmp (.absolute (word (p + 2))) + codePenalty { r with
        a := mem (word (t + r.x.toNat))
        x := r.x + 1
        p := setNZ (setNZ r.p (mem (word (t + r.x.toNat)))) (r.x + 1)
        pc := word (p + 11) } mem .Jmp (.absolute (word (p + 2))))))) =
      15 + crosses t (word (t + r.x.toNat)).toNat := by
    show 4 + _ + (2 + (4 + (2 + 0 + (3 + 0)))) = _
    omega
  rw [en] at s
  exact ⟨_, s, rfl, rfl, rfl, rfl⟩

/-- The first `n` bytes, none of which is the end. -/
theorem tells_bytes (hJ : ShowsMem b J mem) (hport : TakesAt b J (word port)) (ht : t < 65536)
    (hc : CodeAt mem p (printer p t port)) (hp : p + 14 < 65536) {r : Regs} (hpc : r.pc = word (p + 2))
    (hx : r.x = 0) (n : Nat) (hne : ∀ i < n, mem (word (t + i % 256)) ≠ 0) :
    ∃ r', Tells b J r ((List.range n).map fun i => (word port, mem (word (t + i % 256)))) (5 * n)
        (printingCycles t n) r' ∧
      r'.pc = word (p + 2) ∧ r'.x = byte n ∧ r'.y = r.y ∧ r'.sp = r.sp := by
  induction n with
  | zero => exact ⟨r, Tells.refl r, hpc, hx, rfl, rfl⟩
  | succ n ih =>
    obtain ⟨r', h1, h2, h3, h4, h5⟩ := ih fun i hi => hne i (by omega)
    have ex : r'.x.toNat = n % 256 := by rw [h3]; exact toNat_byte n
    obtain ⟨r'', k1, k2, k3, k4, k5⟩ := tells_byte hJ hport ht hc hp h2 (by rw [ex]; exact hne n (by omega))
    rw [ex] at k1
    refine ⟨r'', ?_, k2, ?_, k4.trans h4, k5.trans h5⟩
    · have := h1.trans k1
      rw [List.range_succ, List.map_append]
      rw [← Nat.add_assoc (printingCycles t n)] at this
      exact this
    · rw [k3, h3]
      apply BitVec.eq_of_toNat_eq
      rw [BitVec.toNat_add, toNat_byte, toNat_byte]
      show (n % 256 + 1) % 256 = _
      omega

theorem tells_start (hJ : ShowsMem b J mem) (hc : CodeAt mem p (printer p t port)) (hp : p + 14 < 65536)
    {r : Regs} (hpc : r.pc = word p) :
    Tells b J r [] 1 2 { r with x := 0, p := setNZ r.p 0, pc := word (p + 2) } := by
  obtain ⟨c1, -⟩ := printer_parts hc
  obtain ⟨h0, h1⟩ := code2 c1
  have := tells_quiet (b := b) (r := r) (i := .LdxImmediate 0x00) (mn := .Ldx)
    (am := .immediate 0x00) hJ hpc (by omega) (by rw [h0, h1]; rfl) rfl trivial rfl
  have e : (codeEffect r mem .Ldx (.immediate 0x00)).regs = { r with x := 0, p := setNZ r.p 0, pc := word (p + 2) } := by
    show ({ r with x := 0, p := setNZ r.p 0, pc := nextPc r (.immediate 0x00) } : Regs) = _
    rw [nextPc_of hpc (by omega)]; rfl
  rw [e] at this
  exact this

/-- C149: with a text ended by a zero at `t`, at most 255 bytes long, and the program at `p`, the CPU
stores the bytes of the text at `port`, in order, nothing else and nothing elsewhere, and is then at the
end of the program, after exactly the stated numbers of instructions and cycles. -/
theorem C149_print (hJ : ShowsMem b J mem) (hport : TakesAt b J (word port)) (ht : t < 65536)
    (hc : CodeAt mem p (printer p t port)) (hp : p + 14 < 65536) {w : List Byte} (hw : CodeAt mem t (w ++ [0]))
    (h0 : ∀ x ∈ w, x ≠ 0) (hlen : w.length < 256) {c : Mos6502 B} (hpc : c.pc = word p) (hbus : J c.address_map) :
    ∃ l d, Instructions b c l d ∧ l.length = 5 * w.length + 3 ∧ totalCycles l = printerCycles p t w.length ∧
      programStores l = w.map (fun x => (word port, x)) ∧ run b c (printerCycles p t w.length) = .ok (.ready d) ∧
      d.pc = word (p + 14) ∧ d.x = byte w.length ∧ d.y = c.y ∧ d.sp = c.sp ∧ J d.address_map := by
  obtain ⟨-, c2, c3, -⟩ := printer_parts hc
  obtain ⟨hw1, hw2⟩ := codeAt_append hw
  have hend : mem (word (t + w.length)) = 0 := hw2 0 (by simp)
  have s1 := tells_start (b := b) (J := J) (r := regs c) hJ hc hp hpc
  obtain ⟨r', s2, e1, e2, e3, e4⟩ := tells_bytes (b := b) (J := J)
    (r := { regs c with x := 0, p := setNZ (regs c).p 0, pc := word (p + 2) })
    hJ hport ht hc hp rfl rfl w.length (by
      intro i hi
      rw [Nat.mod_eq_of_lt (by omega), hw1 i hi]
      exact h0 _ (List.getElem_mem hi))
  have ex : r'.x.toNat = w.length := by rw [e2, toNat_byte]; omega
  have s3 := tells_lda (b := b) (J := J) hJ e1 (by omega) ht c2
  rw [ex, hend] at s3
  have s4 := (tells_beq (b := b) (J := J) (r := { r' with a := 0, p := setNZ r'.p 0, pc := word (p + 2 + 3) }) hJ rfl (by omega)
    c3).2 rfl
  have s := s1.trans (s2.trans (s3.trans s4))
  obtain ⟨l, d, q1, q2, q3, q4, q5, q6⟩ := s c rfl hbus
  have q3 : totalCycles l = printerCycles p t w.length := by
    rw [q3]
    unfold printerCycles
    rw [show p + 2 + 3 = p + 5 by omega, show p + 5 + 9 = p + 14 by omega]
    omega
  refine ⟨l, d, q1, by rw [q2]; omega, q3, ?_, C12_run_eq q1 (by omega) (.inl q3), ?_, ?_, ?_, ?_, q6⟩
  · rw [q4]
    show (List.range w.length).map _ ++ [] = _
    rw [List.append_nil]
    apply List.ext_getElem
    · simp
    · intro i h1 h2
      have hi : i < w.length := by simpa using h1
      rw [List.getElem_map, List.getElem_map, List.getElem_range, Nat.mod_eq_of_lt (by omega), hw1 i hi]
  · show (regs d).pc = _
    rw [q5]
  · show (regs d).x = _
    rw [q5]; exact e2
  · show (regs d).y = _
    rw [q5]; exact e3
  · show (regs d).sp = _
    rw [q5]; exact e4

/-- C149, a text that is too long: with no zero among the 256 bytes at `t` the program never ends, and
prints those 256 bytes over and over. -/
theorem C149_long (hJ : ShowsMem b J mem) (hport : TakesAt b J (word port)) (ht : t < 65536)
    (hc : CodeAt mem p (printer p t port)) (hp : p + 14 < 65536)
    (h0 : ∀ i < 256, mem (word (t + i)) ≠ 0) {c : Mos6502 B} (hpc : c.pc = word p) (hbus : J c.address_map) (n : Nat) :
    ∃ l d, Instructions b c l d ∧ l.length = 5 * n + 1 ∧ totalCycles l = 2 + printingCycles t n ∧
      programStores l = (List.range n).map (fun i => (word port, mem (word (t + i % 256)))) ∧
      d.pc = word (p + 2) ∧ J d.address_map := by
  have s1 := tells_start (b := b) (J := J) (r := regs c) hJ hc hp hpc
  obtain ⟨r', s2, e1, -⟩ := tells_bytes (b := b) (J := J)
    (r := { regs c with x := 0, p := setNZ (regs c).p 0, pc := word (p + 2) })
    hJ hport ht hc hp rfl rfl n fun i _ => h0 _ (Nat.mod_lt _ (by omega))
  obtain ⟨l, d, q1, q2, q3, q4, q5, q6⟩ := (s1.trans s2) c rfl hbus
  refine ⟨l, d, q1, by rw [q2]; omega, q3, q4, ?_, q6⟩
  show (regs d).pc = _
  rw [q5]; exact e1

end

/-! ### On the adapter of the example -/

/-- Reading a map one of whose devices was exchanged for one that reads the same. -/
theorem read_set {D : Type} [Addressable D] (b : Build) (r : AddrRange) {d d' : D}
    (h : ∀ a, Addressable.read b d' a = Addressable.read b d a) (a : Word) :
    ∀ (es : List (AddrRange × D)) (i : Nat), es[i]? = some (r, d) →
      AddressMap.read b ⟨es.set i (r, d')⟩ a = AddressMap.read b ⟨es⟩ a := by
  intro es
  induction es with
  | nil => intro i hi; cases hi
  | cons e es ih =>
    intro i hi
    cases i with
    | zero =>
      cases hi
      unfold AddressMap.read
      simp only [List.set_cons_zero, List.find?_cons]
      cases r.contains a
      · rfl
      · exact h a
    | succ i =>
      have := ih i hi
      unfold AddressMap.read at this ⊢
      simp only [List.set_cons_succ, List.find?_cons]
      cases e.1.contains a
      · exact this
      · rfl

/-- The maps that differ from `m₀` in what the adapter at `base`, device number `i`, holds. -/
def AdapterAt (m₀ : AddressMap Device) (i : Nat) (base : Word) (m : AddressMap Device) : Prop :=
  ∃ v : Via, v.port_a_addr = base ∧ v.port_b_addr = base + 1 ∧ v.port_a_mask = base + 2 ∧ v.port_b_mask = base + 3 ∧
    m.inner = m₀.inner.set i (⟨base, base + 3⟩, .via v)

theorem adapter_shows {b : Build} {m₀ : AddressMap Device} {i : Nat} {base : Word} {v : Via} {mem : Mem}
    (hi : m₀.inner[i]? = some (⟨base, base + 3⟩, .via v)) (hm : BusView b m₀ mem) :
    ShowsMem b (AdapterAt m₀ i base) mem := by
  rintro m ⟨v', -, -, -, -, hm'⟩ a
  rw [← hm a]
  show AddressMap.read b m a = AddressMap.read b m₀ a
  have := read_set b ⟨base, base + 3⟩ (d := Device.via v) (d' := .via v') (fun _ => rfl) a m₀.inner i hi
  rw [← hm'] at this
  exact this

theorem disjoint_unique {D : Type} {es : List (AddrRange × D)} (hd : DisjointEntries es) {a : Word} {i j : Nat}
    {e f : AddrRange × D} (hi : es[i]? = some e) (hj : es[j]? = some f) (he : InRange e.1 a) (hf : InRange f.1 a) :
    i = j := by
  rw [List.getElem?_eq_some_iff] at hi hj
  obtain ⟨h1, rfl⟩ := hi
  obtain ⟨h2, rfl⟩ := hj
  unfold DisjointEntries at hd
  rw [List.pairwise_iff_getElem] at hd
  rcases Nat.lt_trichotomy i j with h | h | h
  · exact absurd ⟨a, he, hf⟩ (hd i j h1 h2 h)
  · exact h
  · exact absurd ⟨a, hf, he⟩ (hd j i h2 h1 h)

theorem adapter_takes {b : Build} {m₀ : AddressMap Device} {i : Nat} {base : Word} {v : Via}
    (hb : base.toNat + 3 < 65536) (hd : DisjointEntries m₀.inner)
    (hi : m₀.inner[i]? = some (⟨base, base + 3⟩, .via v)) : TakesAt b (AdapterAt m₀ i base) base := by
  rintro m ⟨v', h1, h2, h3, h4, hm⟩ x
  have e3 : (base + 3).toNat = base.toNat + 3 := by
    rw [BitVec.toNat_add]; change (_ + 3) % 65536 = _; omega
  have hin : InRange ⟨base, base + 3⟩ base := ⟨Nat.le_refl _, by show _ ≤ (base + 3).toNat; omega⟩
  have hlt : i < m₀.inner.length := (List.getElem?_eq_some_iff.1 hi).1
  have hmi : m.inner[i]? = some (⟨base, base + 3⟩, .via v') := by
    rw [hm, List.getElem?_set_self hlt]
  have hd' : DisjointEntries m.inner := by
    rw [AddressMap.disjoint_iff_map_fst] at hd ⊢
    rw [hm, List.map_set]
    have : (m₀.inner.map Prod.fst).set i ⟨base, base + 3⟩ = m₀.inner.map Prod.fst := by
      apply List.ext_getElem?
      intro j
      rw [List.getElem?_set]
      split
      · rename_i h
        subst h
        rw [if_pos (by simpa using hlt), List.getElem?_map, hi]; rfl
      · rfl
    rw [this]; exact hd
  have hw := AddressMap.write_of_mem b base x m hd' (List.mem_of_getElem? hmi) hin
  rw [via_step hb h1 h2 h3 h4, if_pos hin] at hw
  refine ⟨_, _, hw, { v' with
    port_a := if base = base then x else v'.port_a
    port_b := if base = base + 1 then x else v'.port_b
    printed := v'.printed ++ if base = base then [x] else [] }, h1, h2, h3, h4, ?_⟩
  show AddressMap.updateAt base _ m.inner = _
  apply List.ext_getElem?
  intro j
  unfold AddressMap.updateAt
  rw [List.getElem?_map]
  by_cases hij : i = j
  · subst hij
    rw [hmi, List.getElem?_set_self hlt]
    rw [Option.map_some, if_pos ((AddrRange.contains_iff _ _).2 hin)]
  · rw [List.getElem?_set_ne hij]
    have : m.inner[j]? = m₀.inner[j]? := by rw [hm, List.getElem?_set_ne hij]
    cases hj : m.inner[j]? with
    | none => rw [← this, hj]; rfl
    | some e =>
      rw [← this, hj, Option.map_some, if_neg]
      rw [AddrRange.contains_iff]
      exact fun hf => hij (disjoint_unique hd' hmi hj hin hf)

/-- C149 on a system with the adapter of `custom_peripheral_addr_space.rs` at `base` and any other
devices elsewhere: the adapter has then printed exactly the text, and every other device is as it was. -/
theorem C149_adapter {b : Build} {base : Word} (hb : base.toNat + 3 < 65536) {v : Via} (hv : Via.new b base = .ok v)
    {c : Mos6502 (AddressMap Device)} (hd : DisjointEntries c.address_map.inner) {i : Nat}
    (hi : c.address_map.inner[i]? = some (⟨base, base + 3⟩, .via v)) {mem : Mem} (hm : BusView b c.address_map mem)
    {p t : Nat} (ht : t < 65536) (hc : CodeAt mem p (printer p t base.toNat)) (hp : p + 14 < 65536) {w : List Byte}
    (hw : CodeAt mem t (w ++ [0])) (h0 : ∀ x ∈ w, x ≠ 0) (hlen : w.length < 256) (hpc : c.pc = word p) :
    ∃ d v', run b c (printerCycles p t w.length) = .ok (.ready d) ∧ d.pc = word (p + 14) ∧
      d.address_map.inner = c.address_map.inner.set i (⟨base, base + 3⟩, .via v') ∧ v'.printed = w := by
  have eb : word base.toNat = base := BitVec.eq_of_toNat_eq (toNat_word_lt _ base.isLt)
  have hlt : i < c.address_map.inner.length := (List.getElem?_eq_some_iff.1 hi).1
  have hf : v = ⟨base, base + 1, base + 2, base + 3, 0, 0, []⟩ := by
    have h1 : (1 : Word).toNat = 1 := rfl
    have h2 : (2 : Word).toNat = 2 := rfl
    have h3 : (3 : Word).toNat = 3 := rfl
    unfold Via.new addU16 at hv
    rw [h1, h2, h3, if_neg (by simp; omega), if_neg (by simp; omega), if_neg (by simp; omega)] at hv
    exact (Except.ok.inj hv).symm
  have hbus : AdapterAt c.address_map i base c.address_map := by
    refine ⟨v, by rw [hf], by rw [hf], by rw [hf], by rw [hf], ?_⟩
    apply List.ext_getElem?
    intro j
    rw [List.getElem?_set]
    split
    · rename_i h
      subst h
      exact hi
    · rfl
  obtain ⟨l, d, k1, -, -, k4, k5, k6, -, -, -, v', -, -, -, -, k7⟩ := C149_print (b := b) (adapter_shows hi hm)
    (by rw [eb]; exact adapter_takes hb hd hi) ht hc hp hw h0 hlen hpc hbus
  obtain ⟨v'', q1, q2, -⟩ := C88_console hb hv k1 hd hi
  rw [k7, List.getElem?_set_self hlt] at q1
  cases q1
  refine ⟨d, v', k5, k6, k7, ?_⟩
  rw [q2, k4, eb]
  unfold shownAt
  rw [List.filter_eq_self.2 (by intro x hx; obtain ⟨y, -, rfl⟩ := List.mem_map.1 hx; simp), List.map_map]
  exact List.map_id' _

/-! ### A concrete case -/

/-- The program at 0x200 with the text `HELLO` behind it. -/
def helloRom : List Byte := printer 0x200 0x20e 0x8000 ++ [72, 69, 76, 76, 79, 0]

/-- The adapter at 0x8000 and a ROM with the program. -/
def helloMap : AddressMap Device :=
  ⟨[(⟨0x8000, 0x8003⟩, .via (viaAfter [])), (⟨0x200, 0x213⟩, .memory ⟨.readOnly, 0x200, 0x213, helloRom⟩)]⟩

/-- What the bus shows. -/
def helloMem : Mem := fun a => if 0x200 ≤ a.toNat ∧ a.toNat ≤ 0x213 then helloRom.getD (a.toNat - 0x200) 0 else 0

theorem helloMap_disjoint : DisjointEntries helloMap.inner := by
  rw [AddressMap.disjoint_iff_map_fst]
  show List.Pairwise _ [(⟨0x8000, 0x8003⟩ : AddrRange), ⟨0x200, 0x213⟩]
  simp only [List.pairwise_cons, List.mem_cons, List.not_mem_nil, or_false, forall_eq, List.Pairwise.nil, and_true,
    false_implies, implies_true]
  exact not_overlap (by decide)

theorem helloMap_shows (b : Build) : BusView b helloMap helloMem := by
  intro a
  have c1 : (0x200 : Word).toNat = 0x200 := rfl
  have c2 : (0x213 : Word).toNat = 0x213 := rfl
  have c3 : (0x8000 : Word).toNat = 0x8000 := rfl
  have c4 : (0x8003 : Word).toNat = 0x8003 := rfl
  show helloMap.read b a = _
  unfold helloMem
  by_cases h : 0x200 ≤ a.toNat ∧ a.toNat ≤ 0x213
  · rw [AddressMap.read_of_mem b helloMap a helloMap_disjoint (r := ⟨0x200, 0x213⟩) (.tail _ (.head _))
      ⟨by rw [c1]; omega, by rw [c2]; omega⟩, if_pos h]
    show Memory.read b _ a = _
    have hl : helloRom.length = 20 := rfl
    rw [memory_read b _ _ _ _ _ (by rw [c1]; omega) (by rw [c1, hl]; omega), c1]
  · rw [if_neg h]
    by_cases h' : 0x8000 ≤ a.toNat ∧ a.toNat ≤ 0x8003
    · rw [AddressMap.read_of_mem b helloMap a helloMap_disjoint (r := ⟨0x8000, 0x8003⟩) (.head _)
        ⟨by rw [c3]; omega, by rw [c4]; omega⟩]
      rfl
    · rw [AddressMap.read_of_find_none b helloMap a]
      intro e he
      simp only [helloMap, List.mem_cons, List.not_mem_nil, or_false] at he
      unfold InRange
      rcases he with rfl | rfl <;> simp only [c1, c2, c3, c4] <;> omega

/-- The system prints `HELLO` in 84 cycles, in every build. -/
example (b : Build) : ∃ d v', run b { withAddressmap helloMap with pc := 0x200 } 84 = .ok (.ready d) ∧
    d.pc = 0x20e ∧ d.address_map.inner[0]? = some (⟨0x8000, 0x8003⟩, .via v') ∧
    v'.printed = [72, 69, 76, 76, 79] := by
  obtain ⟨d, v', h1, h2, h3, h4⟩ := C149_adapter (b := b) (base := 0x8000) (by decide) (v := viaAfter [])
    (by rcases b with ⟨⟨⟩⟩ <;> rfl) (c := { withAddressmap helloMap with pc := 0x200 }) helloMap_disjoint (i := 0) rfl
    (helloMap_shows b) (p := 0x200) (t := 0x20e) (by decide) (w := [72, 69, 76, 76, 79])
    (by unfold CodeAt; decide) (by decide) (by unfold CodeAt; decide) (by decide) (by decide) rfl
  exact ⟨d, v', h1, h2, by rw [h3]; rfl, h4⟩

/-- A memory without a zero meets the hypotheses of `C149_long`: the program on 256 bytes that are all 7. -/
example : ∃ mem : Mem, CodeAt mem 0x200 (printer 0x200 0x300 0x8000) ∧ ∀ i < 256, mem (word (0x300 + i)) ≠ 0 := by
  refine ⟨fun a => if 0x300 ≤ a.toNat then 7 else (printer 0x200 0x300 0x8000).getD (a.toNat - 0x200) 0, ?_, ?_⟩
  · unfold CodeAt; decide
  · intro i hi
    show (if 0x300 ≤ (word (0x300 + i)).toNat then (7 : Byte) else _) ≠ 0
    rw [toNat_word_lt _ (by omega), if_pos (by omega)]
    decide

end Verif.Props
