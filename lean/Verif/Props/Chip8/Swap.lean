import Verif.Spec.Chip8Swap
import Verif.Props.Chip8.Dead

/-!
# C141 for the CHIP-8: pieces of code that do the same can be exchanged
-/

namespace Verif.Props.Chip8

open Verif Verif.Chip8 Verif.Spec.Chip8
open Verif.Mos (FlatRam flatRam_coherent writeAll_coherent writeAll_accepted)
open Verif.Spec.Mos (Mem BusView writeAll Coherent upd AcceptsAt)

section
variable {B B' R R' : Type} [Addressable B] [Addressable B'] {b : Build} {I : B → Mem → Prop}
  {I' : B' → Mem → Prop} {W P : Word → Prop} {code code' : Mem} {p : Word} {c c1 c' : Chip8 B R}
  {d d' : Chip8 B' R'} {mem mem' : Mem} {op : Opcode} {e : Env} {l out : List (Env × Opcode)}

theorem swap_mem_unique (hI : Coherent b I) {bus : B} {m n : Mem} (h : I bus m) (h' : I bus n) : m = n :=
  funext fun a => by
    have := (hI _ _ h).1 a
    rw [(hI _ _ h').1 a] at this
    exact (Except.ok.inj this).symm

/-- Executions that end outside a piece pass through it. -/
theorem around_split (h : Around b W P p c l c' out) (hin : P c.pc) (hend : ¬P c'.pc) :
    ∃ l1 l2 c1, l = l1 ++ l2 ∧ l1 ≠ [] ∧ Through b P c l1 c1 ∧ ¬P c1.pc ∧ Around b W P p c1 l2 c' out := by
  induction h with
  | nil c => exact absurd hin hend
  | outside h => exact absurd hin h
  | @inside c c1 c2 e op l out h1 h2 h3 h4 ih =>
    by_cases hp : P c1.pc
    · obtain ⟨l1, l2, c3, rfl, k1, k2, k3, k4⟩ := ih hp hend
      exact ⟨(e, op) :: l1, l2, c3, rfl, by simp, .more h1 h2 h3 hp k2, k3, k4⟩
    · exact ⟨[(e, op)], l, c1, rfl, by simp, .last h1 h2 h3 hp, hp, h4⟩

theorem through_apart {c2 : Chip8 B R} {l2 : List (Env × Opcode)} (h : Through b P c l c1)
    (h' : Apart b P c1 l2 c2 out) : Apart b P c (l ++ l2) c2 out := by
  induction h with
  | last h1 h2 h3 _ => exact .inside h1 h2 h3 h'
  | more h1 h2 h3 _ _ ih => exact .inside h1 h2 h3 (ih h')

omit [Addressable B] [Addressable B'] in
theorem sets_mem (hi : d.i = c.i) {a : Word} (h : .mem a ∈ sets d op) : .mem a ∈ sets c op := by
  cases op <;> simp only [sets, List.not_mem_nil, List.mem_cons, reduceCtorEq, or_false] at h ⊢
  case LdK =>
    split at h <;> simp at h
  case ReadRegistersFromMemory => simp [upTo] at h
  all_goals
    simp only [span, iPlus, hi] at h ⊢
    exact h

/-- The piece stays as it is when an instruction stores elsewhere. -/
theorem holds_step (hI : Coherent b I) (hm : I c.address_space mem) (hw : WellFormed c) (hat : At b c op)
    (hs : StepsTo b e c c') {m : Mem} (hm1 : I c'.address_space m) (hc : HoldsPiece P code mem)
    (hn : ∀ a, P a → .mem a ∉ sets c op) : HoldsPiece P code m := by
  obtain ⟨hr, bus, hbus, rfl⟩ := step_inv hat (hI _ _ hm).1 hw hs
  have := swap_mem_unique hI hm1 (writeAll_coherent hI _ hm hbus)
  subst this
  intro a ha
  have hk : Same c (after e mem c op) mem (memAfter mem c op) (.mem a) := kept_all (hn a ha)
  exact Eq.trans hk (hc a ha)

/-- C141 for the CHIP-8: for every execution of the one program that ends outside the piece there is one of the
other with the same instructions outside the piece, in the same worlds. -/
theorem C141_chip8_swap (hI : Coherent b I) (hI' : Coherent b I') (hacc : AcceptsAt b I' W)
    (hsw : SameWork b I I' R R' P code code' p)
    (hm : I c.address_space mem) (hm' : I' d.address_space mem') (hw : WellFormed c) (hw' : WellFormed d)
    (h : Agree (inPiece P) c d mem mem') (hc : HoldsPiece P code mem) (hc' : HoldsPiece P code' mem')
    (hpc : P c.pc → c.pc = p) (hx : Around b W P p c l c' out) (hend : ¬P c'.pc) :
    ∃ l' d' m m', Apart b P d l' d' out ∧ I c'.address_space m ∧ I' d'.address_space m' ∧
      Agree (inPiece P) c' d' m m' ∧ HoldsPiece P code m ∧ HoldsPiece P code' m' := by
  induction hn : l.length using Nat.strong_induction_on generalizing c d mem mem' l out with
  | _ n ih =>
  by_cases hin : P c.pc
  · obtain ⟨l1, l2, c1, rfl, k1, k2, k3, k4⟩ := around_split hx hin hend
    obtain ⟨l1', d1, m, m', g1, g2, g3, g4, g5, g6, g7, g8⟩ :=
      hsw c d mem mem' hm hm' hw hw' (hpc hin) h hc hc' l1 c1 k2
    obtain ⟨l', d', m2, m2', r1, r2⟩ := ih l2.length (by
      rw [← hn, List.length_append]
      have := List.length_pos_iff.2 k1
      omega) g4 g5 g2 g3 g6 g7 g8 (fun hh => absurd hh k3) k4 rfl
    exact ⟨l1' ++ l', d', m2, m2', through_apart g1 r1, r2⟩
  · cases hx with
    | nil => exact ⟨[], d, mem, mem', .nil d, hm, hm', h, hc, hc'⟩
    | inside h1 => exact absurd h1 hin
    | @outside _ c1 _ e op l out h1 h2 h3 h4 h5 h6 h7 =>
      obtain ⟨d1, m, m', q1, q2, q3, q4, q5, q6, q7⟩ :=
        C114_step hI hI' hacc hm hm' hw hw' h h2 h4 (fun a ha => (h5 a ha).2) h3
      have hi : d.i = c.i := h.same .i fun ⟨a, _, e⟩ => by cases e
      obtain ⟨l', d', m2, m2', r1, r2⟩ := ih l.length (by rw [← hn]; simp) q3 q4 q5 q6
        ⟨q7.pc, fun q hq => q7.same q fun hh => hq hh.1⟩
        (holds_step hI hm hw h2 h3 q3 hc fun a ha hh => (h5 a hh).1 ha)
        (holds_step hI' hm' hw' q1 q2 q4 hc' fun a ha hh => (h5 a (sets_mem hi hh)).1 ha) h6 h7 rfl
      exact ⟨(e, op) :: l', d', m2, m2', .outside (by rwa [h.pc]) q1 q2 r1, r2⟩

end

/-! ### Two additions are one -/

/-- The four bytes from `p` on. -/
def four (p a : Word) : Prop := (a - p).toNat < 4

theorem four_add (p : Word) (k : Nat) (hk : k < 65536) : four p (p + BitVec.ofNat 16 k) ↔ k < 4 := by
  unfold four
  rw [BitVec.add_comm, BitVec.add_sub_cancel, BitVec.toNat_ofNat, Nat.mod_eq_of_lt (by omega)]

theorem four_word {p : Word} {code mem : Mem} (h : HoldsPiece (four p) code mem) (k : Nat) (hk : k < 3) :
    wordAt mem (p + BitVec.ofNat 16 k) = wordAt code (p + BitVec.ofNat 16 k) := by
  unfold wordAt
  rw [h _ ((four_add p k (by omega)).2 (by omega))]
  have e : p + BitVec.ofNat 16 k + 1 = p + BitVec.ofNat 16 (k + 1) := by
    rw [BitVec.ofNat_add, ← BitVec.add_assoc]
    rfl
  rw [e, h _ ((four_add p (k + 1) (by omega)).2 (by omega))]

section
variable {B R : Type} [Addressable B] {b : Build} {I : B → Mem → Prop} {c : Chip8 B R} {mem : Mem} {p : Word}

/-- What the instruction of the piece at `p + k` is. -/
theorem four_at {code : Mem} {op : Opcode} (hp : p.toNat + 4 < 65536) (hv : BusView b c.address_space mem)
    (hc : HoldsPiece (four p) code mem) {k : Nat} (hk : k < 3) (hpc : c.pc = p + BitVec.ofNat 16 k)
    (ho : wordAt code (p + BitVec.ofNat 16 k) = encode op) (hval : Valid op) : At b c op :=
  (fetch_iff hv (.inr (by
    rw [hpc, BitVec.toNat_add, BitVec.toNat_ofNat]; omega)) op).2 ⟨hval, by rw [hpc, four_word hc k hk, ho]⟩

theorem at_fun {op op' : Opcode} (h : At b c op) (h' : At b c op') : op = op' :=
  Except.ok.inj (Eq.trans h.symm h')

end

section
variable {B B' : Type} [Addressable B] [Addressable B'] {b : Build} {I : B → Mem → Prop}
  {I' : B' → Mem → Prop} {R R' : Type} {code code' : Mem} {p : Word}

/-- C141 for the CHIP-8, a pair of such pieces: `ADD Vx, k; ADD Vx, j` on the one side and
`ADD Vx, k + j; SYS a` on the other. -/
theorem C141_chip8_add {x : GpRegisters} {k j : Byte} {a : U12} (hI : Coherent b I) (hI' : Coherent b I')
    (hp : p.toNat + 4 < 65536)
    (h0 : wordAt code p = encode (.AddImmediate x k)) (h1 : wordAt code (p + 2) = encode (.AddImmediate x j))
    (h0' : wordAt code' p = encode (.AddImmediate x (k + j))) (h1' : wordAt code' (p + 2) = encode (.Sys a))
    (ha : Valid (.Sys a)) : SameWork b I I' R R' (four p) code code' p := by
  intro c d mem mem' hm hm' hw hw' hpc h hc hc' l c2 hth
  have hv := (hI _ _ hm).1
  have hv' := (hI' _ _ hm').1
  have hp0 : p + BitVec.ofNat 16 0 = p := by simp
  have hin0 : four p p := by simp [four]
  have hin2 : four p (p + 2) := (four_add p 2 (by omega)).2 (by omega)
  have hout4 : ¬four p (p + 2 + 2) := by
    have e : p + 2 + 2 = p + BitVec.ofNat 16 4 := by rw [BitVec.add_assoc]; rfl
    rw [e, four_add p 4 (by omega)]
    omega
  have hat : At b c (.AddImmediate x k) :=
    four_at hp hv hc (k := 0) (by omega) (by rw [hp0, hpc]) (by rw [hp0, h0]) trivial
  -- the first machine
  have first : ∀ {e : Env} {op : Opcode} {c1 : Chip8 B R}, At b c op → StepsTo b e c c1 →
      x ≠ .Vf ∧ c1 = { advance (setV c x (V c x + k)) 2 with address_space := c.address_space } := by
    intro e op c1 ho hs
    cases at_fun ho hat
    obtain ⟨hr, bus, hbus, rfl⟩ := step_inv hat hv hw hs
    cases hbus
    exact ⟨hr.1, rfl⟩
  have pc1 : ∀ {T S : Type} (c : Chip8 T S) (v : Byte), c.pc = p → (advance (setV c x v) 2).pc = p + 2 := by
    intro T S c v hpc
    apply BitVec.eq_of_toNat_eq
    simp only [advance, setV, hpc, BitVec.toNat_ofNat, BitVec.toNat_add]
    rfl
  have pc2 : ∀ {T S : Type} (c : Chip8 T S), c.pc = p + 2 → (advance c 2).pc = p + 2 + 2 := by
    intro T S c hpc
    apply BitVec.eq_of_toNat_eq
    simp only [advance, hpc, BitVec.toNat_ofNat, BitVec.toNat_add]
    rfl
  have key : ∀ {e : Env} {op : Opcode} {c1 : Chip8 B R}, At b c op → StepsTo b e c c1 →
      ∀ {e' : Env} {op' : Opcode} {c2 : Chip8 B R}, At b c1 op' → StepsTo b e' c1 c2 →
      x ≠ .Vf ∧ c2 = { advance (setV c1 x (V c1 x + j)) 2 with address_space := c.address_space } := by
    intro e op c1 ho hs e' op' c2 ho' hs'
    obtain ⟨hx, rfl⟩ := first ho hs
    have hw1 := wellFormed_step ho hv hw hs
    have hat1 : At b { advance (setV c x (V c x + k)) 2 with address_space := c.address_space }
        (.AddImmediate x j) :=
      four_at hp hv hc (k := 2) (by omega) (pc1 c _ hpc) h1 trivial
    cases at_fun ho' hat1
    obtain ⟨hr, bus, hbus, rfl⟩ := step_inv hat1 hv hw1 hs'
    cases hbus
    exact ⟨hx, rfl⟩
  -- the second machine
  have atd : At b d (.AddImmediate x (k + j)) :=
    four_at hp hv' hc' (k := 0) (by omega) (by rw [hp0, h.pc, hpc]) (by rw [hp0, h0']) trivial
  have fin : ∀ {e : Env} {op : Opcode} {c1 : Chip8 B R}, At b c op → StepsTo b e c c1 →
      ∀ {e' : Env} {op' : Opcode} {c2 : Chip8 B R}, At b c1 op' → StepsTo b e' c1 c2 → ∃ l' d1 m m',
      Through b (four p) d l' d1 ∧ WellFormed c2 ∧ WellFormed d1 ∧ I c2.address_space m ∧
      I' d1.address_space m' ∧ Agree (inPiece (four p)) c2 d1 m m' ∧ HoldsPiece (four p) code m ∧
      HoldsPiece (four p) code' m' := by
    intro e op c1 ho hs e' op' c2 ho' hs'
    obtain ⟨hx, e2⟩ := key ho hs ho' hs'
    obtain ⟨-, e1⟩ := first ho hs
    have hw1 := wellFormed_step ho hv hw hs
    have hv1 : BusView b c1.address_space mem := by rw [e1]; exact hv
    have hw2 := wellFormed_step ho' hv1 hw1 hs'
    have hrd : Runs b d (.AddImmediate x (k + j)) := ⟨hx, fun h => h.2⟩
    have hsd : StepsTo b e d { advance (setV d x (V d x + (k + j))) 2 with address_space := d.address_space } :=
      step_ok (e := e) (mem := mem') atd hrd (fun _ => hv') (fun _ => hw')
    have hwd := wellFormed_step atd hv' hw' hsd
    have hpd : d.pc = p := by rw [h.pc, hpc]
    have atd1 : At b { advance (setV d x (V d x + (k + j))) 2 with address_space := d.address_space } (.Sys a) :=
      four_at hp hv' hc' (k := 2) (by omega) (pc1 d _ hpd) h1' ha
    have hsd1 : StepsTo b e' { advance (setV d x (V d x + (k + j))) 2 with address_space := d.address_space }
        { advance { advance (setV d x (V d x + (k + j))) 2 with address_space := d.address_space } 2 with
          address_space := d.address_space } :=
      step_ok (e := e') (mem := mem') atd1 ⟨id, fun h => h.2⟩ (fun _ => hv') (fun _ => hwd)
    have hwd1 := wellFormed_step atd1 hv' hwd hsd1
    refine ⟨[(e, .AddImmediate x (k + j)), (e', .Sys a)], _, mem, mem',
      .more (by rw [hpd]; exact hin0) atd hsd ?_ (.last ?_ atd1 hsd1 ?_), hw2, hwd1, ?_, hm', ⟨?_, ?_⟩, hc, hc'⟩
    · have := pc1 d (V d x + (k + j)) hpd
      exact this.symm ▸ hin2
    · have := pc1 d (V d x + (k + j)) hpd
      exact this.symm ▸ hin2
    · have := pc2 (advance (setV d x (V d x + (k + j))) 2) (pc1 d _ hpd)
      exact fun hh => hout4 (this ▸ hh)
    · rw [e2]; exact hm
    · rw [e2, e1]
      exact (pc2 (advance (setV d x (V d x + (k + j))) 2) (pc1 d _ hpd)).trans
        (pc2 (advance (setV c x (V c x + k)) 2) (pc1 c _ hpc)).symm
    · intro q hq
      have hs := h.same q hq
      rw [e2, e1]
      cases q with
      | v r =>
        show V (setV d x _) r = V (setV (setV c x _) x (V (setV c x _) x + j)) r
        have hsx : V d x = V c x := h.same (.v x) fun ⟨_, _, e⟩ => by cases e
        rw [V_setV _ hx, V_setV _ hx, V_setV _ hx, V_setV _ hx, if_pos rfl, hsx, BitVec.add_assoc]
        by_cases hr : r = x
        · rw [if_pos hr, if_pos hr]
        · rw [if_neg hr, if_neg hr, if_neg hr]
          exact hs
      | _ => exact hs
  cases hth with
  | last g1 g2 g3 g4 =>
    obtain ⟨-, rfl⟩ := first g2 g3
    have := pc1 c (V c x + k) hpc
    exact absurd (this.symm ▸ hin2) g4
  | more g1 g2 g3 g4 g5 =>
    cases g5 with
    | last r1 r2 r3 r4 => exact fin g2 g3 r2 r3
    | more r1 r2 r3 r4 r5 =>
      obtain ⟨-, e2⟩ := key g2 g3 r2 r3
      obtain ⟨-, e1⟩ := first g2 g3
      rw [e2, e1] at r4
      have := pc2 (advance (setV c x (V c x + k)) 2) (pc1 c _ hpc)
      exact absurd (this ▸ r4) hout4

end

/-! ### Concrete cases -/

/-- `ADD V1, 1; ADD V1, 2` (or what is given instead) and `LD V2, V1` from 0x200 on. -/
def withSix (m0 m1 m2 m3 : Byte) : Chip8 FlatRam Unit :=
  { sample with address_space := ⟨fun a => if a = 0x204 then 0x82 else if a = 0x205 then 0x10 else
      (withFour m0 m1 m2 m3).address_space.mem a⟩ }

/-- The hypotheses of `C141_chip8_swap` and `C141_chip8_add`: `ADD V1, 1; ADD V1, 2; LD V2, V1` is executed;
with `ADD V1, 3; SYS 0` in place of the first two instructions V2 gets the same. -/
example (e : Env) : ∃ c' l' d', Does .debug (withSix 0x71 1 0x71 2)
      [(e, .AddImmediate .V1 1), (e, .AddImmediate .V1 2), (e, .LdVxVy .V2 .V1)] c' ∧
    Apart .debug (four 0x200) (withSix 0x71 3 0 0) l' d' [(e, .LdVxVy .V2 .V1)] ∧ V d' .V2 = V c' .V2 := by
  have hv : ∀ c : Chip8 FlatRam Unit, BusView .debug c.address_space c.address_space.mem := view .debug
  have h0 : At .debug (withSix 0x71 1 0x71 2) (.AddImmediate .V1 1) :=
    (C40_fetch (view _ _) (by decide +kernel) _).2 ⟨trivial, by decide +kernel⟩
  have s0 : StepsTo .debug e (withSix 0x71 1 0x71 2) (after e (withSix 0x71 1 0x71 2).address_space.mem
      (withSix 0x71 1 0x71 2) (.AddImmediate .V1 1)) :=
    step_ok (e := e) h0 ⟨by simp [UsesVf], fun h => h.2⟩ (fun _ => hv _) (fun _ => ⟨rfl, rfl⟩)
  generalize hc1 : after e (withSix 0x71 1 0x71 2).address_space.mem (withSix 0x71 1 0x71 2)
    (.AddImmediate .V1 1) = c1 at s0
  have h1 : At .debug c1 (.AddImmediate .V1 2) := by
    have p1 : c1.pc = 0x202 := by subst hc1; rfl
    have m1 : c1.address_space.mem = (withSix 0x71 1 0x71 2).address_space.mem := by subst hc1; rfl
    exact (C40_fetch (view _ _) (by rw [p1]; decide) _).2 ⟨trivial, by rw [p1, m1]; decide +kernel⟩
  have w1 : WellFormed c1 := wellFormed_step h0 (hv _) ⟨rfl, rfl⟩ s0
  have s1 : StepsTo .debug e c1 (after e c1.address_space.mem c1 (.AddImmediate .V1 2)) :=
    step_ok (e := e) h1 ⟨by simp [UsesVf], fun h => h.2⟩ (fun _ => hv _) (fun _ => w1)
  generalize hc2 : after e c1.address_space.mem c1 (.AddImmediate .V1 2) = c2 at s1
  have h2 : At .debug c2 (.LdVxVy .V2 .V1) := by
    have p2 : c2.pc = 0x204 := by subst hc2 hc1; rfl
    have m2 : c2.address_space.mem = (withSix 0x71 1 0x71 2).address_space.mem := by subst hc2 hc1; rfl
    exact (C40_fetch (view _ _) (by rw [p2]; decide) _).2 ⟨trivial, by rw [p2, m2]; decide +kernel⟩
  have w2 : WellFormed c2 := wellFormed_step h1 (hv _) w1 s1
  have s2 : StepsTo .debug e c2 (after e c2.address_space.mem c2 (.LdVxVy .V2 .V1)) :=
    step_ok (e := e) h2 ⟨by simp [UsesVf], fun h => h.2⟩ (fun _ => hv _) (fun _ => w2)
  generalize hc3 : after e c2.address_space.mem c2 (.LdVxVy .V2 .V1) = c3 at s2
  have p0 : (withSix 0x71 1 0x71 2).pc = 0x200 := rfl
  have p1 : c1.pc = 0x202 := by subst hc1; rfl
  have p2 : c2.pc = 0x204 := by subst hc2 hc1; rfl
  have p3 : c3.pc = 0x206 := by subst hc3 hc2 hc1; rfl
  have n4 : ¬four 0x200 0x204 := by unfold four; decide
  have n6 : ¬four 0x200 0x206 := by unfold four; decide
  have hx : Around .debug (fun _ => True) (four 0x200) 0x200 (withSix 0x71 1 0x71 2)
      [(e, .AddImmediate .V1 1), (e, .AddImmediate .V1 2), (e, .LdVxVy .V2 .V1)] c3 [(e, .LdVxVy .V2 .V1)] := by
    refine .inside (by rw [p0]; unfold four; decide) h0 s0 (.inside (by rw [p1]; unfold four; decide) h1 s1
      (.outside (by rwa [p2]) h2 s2 ?_ (fun a ha => by simp [sets] at ha) (fun h => absurd h (by rwa [p3])) (.nil _)))
    intro q hq ⟨a, h, e⟩
    subst e
    simp only [uses, ownBytes, looksAt, p2, List.mem_append, List.mem_cons, Part.mem.injEq, List.not_mem_nil,
      or_false, reduceCtorEq] at hq
    rcases hq with hq | hq
    · rw [hq] at h; exact n4 h
    · rw [hq] at h; exact absurd h (by unfold four; decide)
  obtain ⟨l', d', m, m', q1, -, -, q4, -⟩ := C141_chip8_swap (W := fun _ => True) (P := four 0x200) (p := 0x200)
    (c := withSix 0x71 1 0x71 2) (c' := c3)
    (code := (withSix 0x71 1 0x71 2).address_space.mem) (code' := (withSix 0x71 3 0 0).address_space.mem)
    (d := withSix 0x71 3 0 0) (flatRam_coherent .debug) (flatRam_coherent .debug)
    (fun bus m _ a _ v => ⟨v, _, rfl⟩)
    (C141_chip8_add (x := .V1) (k := 1) (j := 2) (a := ⟨0⟩) (flatRam_coherent _) (flatRam_coherent _) (by decide)
      (by decide +kernel) (by decide +kernel) (by decide +kernel) (by decide +kernel)
      ⟨by decide, by decide, by decide⟩) rfl rfl ⟨rfl, rfl⟩ ⟨rfl, rfl⟩
    ⟨rfl, fun q hq => by
      cases q with
      | mem a =>
        have hn : ∀ r, four 0x200 r → a ≠ r := fun r hr e => hq ⟨r, hr, by rw [e]⟩
        have n0 := hn 0x200 (by unfold four; decide)
        have n1 := hn 0x201 (by unfold four; decide)
        have n2 := hn 0x202 (by unfold four; decide)
        have n3 := hn 0x203 (by unfold four; decide)
        simp only [Same, withSix, withFour, if_neg n0, if_neg n1, if_neg n2, if_neg n3]
      | _ => rfl⟩ (fun _ _ => rfl) (fun _ _ => rfl) (fun _ => rfl) hx (by rwa [p3])
  exact ⟨c3, l', d', .cons h0 s0 (.cons h1 s1 (.cons h2 s2 (.nil _))), q1,
    q4.same (.v .V2) fun ⟨_, _, e⟩ => by cases e⟩

/-- C141: entered in the middle the two pieces differ: the one adds 2, the other nothing. -/
theorem C141_chip8_middle : ∃ c' d', StepsTo .debug ⟨0, 0, 0, 0⟩ { withSix 0x71 1 0x71 2 with pc := 0x202 } c' ∧
    StepsTo .debug ⟨0, 0, 0, 0⟩ { withSix 0x71 3 0 0 with pc := 0x202 } d' ∧ c'.pc = 0x204 ∧ d'.pc = 0x204 ∧
    V c' .V1 ≠ V d' .V1 := by
  have h0 : At .debug { withSix 0x71 1 0x71 2 with pc := 0x202 } (.AddImmediate .V1 2) :=
    (C40_fetch (view _ _) (by decide +kernel) _).2 ⟨trivial, by decide +kernel⟩
  have h1 : At .debug { withSix 0x71 3 0 0 with pc := 0x202 } (.Sys ⟨0⟩) :=
    (C40_fetch (view _ _) (by decide +kernel) _).2 ⟨⟨by decide, by decide, by decide⟩, by decide +kernel⟩
  exact ⟨_, _, step_ok (e := ⟨0, 0, 0, 0⟩) (mem := fun _ => 0) h0 ⟨by simp [UsesVf], fun h => h.2⟩
      (fun ⟨_, h⟩ => by cases h) (fun _ => ⟨rfl, rfl⟩),
    step_ok (e := ⟨0, 0, 0, 0⟩) (mem := fun _ => 0) h1 ⟨id, fun h => h.2⟩ (fun ⟨_, h⟩ => by cases h)
      (fun _ => ⟨rfl, rfl⟩),
    rfl, rfl, by decide +kernel⟩

end Verif.Props.Chip8
