import Verif.Spec.Snapshot
import Verif.Props.Mos.Alike
import Verif.Props.Mos.Status
import Verif.Props.Mos.Demo
import Verif.Proofs.MosFinite
import Verif.Proofs.BusStores
import Verif.Props.Mos.Run

/-!
# C140: save states
-/

namespace Verif.Props

open Verif Verif.Mos Verif.Spec Verif.Spec.Mos

/-- What the registrations of a save state do to an address. -/
def asEvent (x : MemKind × AddrRange × List Byte) : BusEvent := .register x.1 x.2.1 x.2.2

theorem after_events (S : List (MemKind × AddrRange × List Byte)) (a : Word) :
    ∀ s : Bus, S.Pairwise (fun x y => ¬ Overlap x.2.1 y.2.1) →
    (∀ x ∈ S, InRange x.2.1 a → ((S.map asEvent).foldl Bus.step s).owner a = some x.1 ∧
      ((S.map asEvent).foldl Bus.step s).val a = x.2.2.getD (a.toNat - x.2.1.start.toNat) 0) ∧
    ((∀ x ∈ S, ¬ InRange x.2.1 a) → ((S.map asEvent).foldl Bus.step s).owner a = s.owner a ∧
      ((S.map asEvent).foldl Bus.step s).val a = s.val a) := by
  induction S with
  | nil => intro s _; exact ⟨fun x hx => (by cases hx), fun _ => ⟨rfl, rfl⟩⟩
  | cons y S ih =>
    intro s hp
    obtain ⟨hy, hS⟩ := List.pairwise_cons.1 hp
    obtain ⟨i1, i2⟩ := ih (s.step (asEvent y)) hS
    rw [List.map_cons, List.foldl_cons]
    constructor
    · intro x hx hin
      rcases List.mem_cons.1 hx with rfl | hx
      · obtain ⟨o, v⟩ := i2 fun z hz hz' => hy z hz ⟨a, hin, hz'⟩
        rw [o, v]
        simp only [asEvent, Bus.step]
        rw [if_pos hin, if_pos hin]
        exact ⟨rfl, rfl⟩
      · exact i1 x hx hin
    · intro hn
      obtain ⟨o, v⟩ := i2 fun z hz => hn z (List.mem_cons_of_mem _ hz)
      rw [o, v]
      have := hn y List.mem_cons_self
      simp only [asEvent, Bus.step]
      rw [if_neg this, if_neg this]
      exact ⟨rfl, rfl⟩

theorem rebuild_ok {b : Build} (S : List (MemKind × AddrRange × List Byte)) :
    ∀ {h : List BusEvent} {m : AddressMap Memory}, MemTrace b h m →
    (∀ x ∈ S, x.2.1.start.toNat ≤ x.2.1.stop.toNat ∧
      x.2.2.length = x.2.1.stop.toNat + 1 - x.2.1.start.toNat) →
    S.Pairwise (fun x y => ¬ Overlap x.2.1 y.2.1) →
    (∀ x ∈ S, ∀ e ∈ m.inner, ¬ Overlap x.2.1 e.1) →
    ∃ m', rebuild b m S = .ok (.ok m') ∧ MemTrace b (h ++ S.map asEvent) m' := by
  induction S with
  | nil => intro h m ht _ _ _; exact ⟨m, rfl, by rw [List.map_nil, List.append_nil]; exact ht⟩
  | cons y S ih =>
    obtain ⟨kind, r, data⟩ := y
    intro h m ht hg hp ha
    obtain ⟨hy, hS⟩ := List.pairwise_cons.1 hp
    obtain ⟨ho, hl⟩ := hg _ List.mem_cons_self
    have hay := ha _ List.mem_cons_self
    simp only at ho hl hay
    have n1 : Memory.new b kind r.start r.stop =
        .ok ⟨kind, r.start, r.stop, List.replicate (r.stop.toNat - r.start.toNat + 1) 0⟩ := by
      unfold Memory.new; rw [if_pos ho]
    have hreg : ∀ dev, m.register r dev = .ok ⟨(r, dev) :: m.inner⟩ := by
      intro dev
      unfold AddressMap.register AddressMap.insert
      rw [if_neg, if_neg]
      · intro hm
        obtain ⟨e, he, rfl⟩ := List.mem_map.1 hm
        exact hay e he ⟨e.1.start, ⟨Nat.le_refl _, ho⟩, Nat.le_refl _, ho⟩
      · intro hany
        obtain ⟨e, he, hc⟩ := List.any_eq_true.1 hany
        unfold AddressMap.conflicts AddrRange.contains at hc
        simp only [Bool.or_eq_true, Bool.and_eq_true, decide_eq_true_eq] at hc
        rcases hc with hc | hc
        · exact hay e he ⟨r.start, ⟨Nat.le_refl _, ho⟩, hc⟩
        · exact hay e he ⟨r.stop, ⟨ho, Nat.le_refl _⟩, hc⟩
    have ht' := MemTrace.register (r := r) (data := data) ht n1
      (by rw [hl]; show _ = (List.replicate _ _).length; rw [List.length_replicate]; omega) hay
      ⟨_, hreg _, List.Perm.refl _⟩
    obtain ⟨m', e1, e2⟩ := ih ht' (fun x hx => hg x (List.mem_cons_of_mem _ hx)) hS (by
      intro x hx e he
      rcases List.mem_cons.1 he with rfl | he
      · intro ⟨a, h1, h2⟩
        exact hy x hx ⟨a, h2, h1⟩
      · exact ha x (List.mem_cons_of_mem _ hx) e he)
    refine ⟨m', ?_, ?_⟩
    · unfold rebuild
      rw [n1, Res.ok_bind]
      simp only [hreg]
      exact e1
    · rw [List.append_assoc] at e2
      exact e2

/-- Saving on a bus of memory segments always works. -/
theorem readRange_ok {b : Build} {m : AddressMap Memory} {s : Bus} (hm : BusInv m s) (r : AddrRange) :
    readRange b m r = .ok ((List.range (r.stop.toNat + 1 - r.start.toNat)).map fun k =>
      s.val (r.start + BitVec.ofNat 16 k)) := by
  unfold readRange
  generalize List.range (r.stop.toNat + 1 - r.start.toNat) = l
  induction l with
  | nil => rfl
  | cons k l ih =>
    rw [List.mapM_cons, ih, hm.read b, List.map_cons]
    rfl

/-- The saved memory of an abstract bus. -/
def contents (s : Bus) (L : SegmentPlan) : List (MemKind × AddrRange × List Byte) :=
  L.map fun x => (x.1, x.2, (List.range (x.2.stop.toNat + 1 - x.2.start.toNat)).map fun k =>
      s.val (x.2.start + BitVec.ofNat 16 k))

theorem save_ok {b : Build} {c : Mos6502 (AddressMap Memory)} {s : Bus} (hm : BusInv c.address_map s)
    (L : SegmentPlan) :
    save b L c = .ok ⟨c.acc, c.x, c.y, c.sp, c.pc, c.ps.read, contents s L⟩ := by
  have : (L.mapM fun x => do
      let bytes ← readRange b c.address_map x.2
      (.ok (x.1, x.2, bytes) : Res (MemKind × AddrRange × List Byte))) = .ok (contents s L) := by
    induction L with
    | nil => rfl
    | cons x L ih =>
      rw [List.mapM_cons, ih, readRange_ok hm]
      rfl
  unfold save
  rw [this]
  rfl

section
variable {b : Build} {h : List BusEvent} {c : Mos6502 (AddressMap Memory)} {L : SegmentPlan}

theorem contents_good (s : Bus) (hL : Sound L) :
    (∀ x ∈ contents s L, x.2.1.start.toNat ≤ x.2.1.stop.toNat ∧
      x.2.2.length = x.2.1.stop.toNat + 1 - x.2.1.start.toNat) ∧
    (contents s L).Pairwise (fun x y => ¬ Overlap x.2.1 y.2.1) := by
  constructor
  · intro x hx
    obtain ⟨y, hy, rfl⟩ := List.mem_map.1 hx
    refine ⟨hL.order y hy, ?_⟩
    show ((List.range _).map _).length = _
    rw [List.length_map, List.length_range]
  · exact List.pairwise_map.2 hL.apart

theorem contents_val (s : Bus) {x : MemKind × AddrRange} {a : Word} (ha : InRange x.2 a) :
    ((List.range (x.2.stop.toNat + 1 - x.2.start.toNat)).map fun k =>
      s.val (x.2.start + BitVec.ofNat 16 k)).getD (a.toNat - x.2.start.toNat) 0 = s.val a := by
  have h1 := ha.1
  have h2 := ha.2
  have hlt := a.isLt
  rw [List.getD_eq_getElem?_getD, List.getElem?_map, List.getElem?_range (by omega)]
  show s.val (x.2.start + BitVec.ofNat 16 (a.toNat - x.2.start.toNat)) = _
  congr 1
  apply BitVec.eq_of_toNat_eq
  rw [BitVec.toNat_add, BitVec.toNat_ofNat]
  omega

/-- C140: a 6502 on a bus of RAM and ROM can be saved and restored. With any sound plan of the memory — the
one it was built with, or one that cuts the same RAM and ROM otherwise — saving succeeds, restoring
succeeds, and, in whatever order the new hash map has its entries, the new bus answers all requests as
the old one, and the new registers are the old ones. -/
theorem C140_restores (ht : MemTrace b h c.address_map) (hL : Sound L)
    (hk : ∀ a, (Bus.after h).owner a = kindAt L a) :
    ∃ s m', save b L c = .ok s ∧ rebuild b AddressMap.new s.memory = .ok (.ok m') ∧
      ∀ m'' : AddressMap Memory, m'.inner.Perm m''.inner → Alike b c.address_map m'' ∧ regs (restoreOn m'' s) = regs c := by
  obtain ⟨g1, g2⟩ := contents_good (Bus.after h) hL
  obtain ⟨m', e1, e2⟩ := rebuild_ok (b := b) (contents (Bus.after h) L) .new g1 g2
    (fun x _ e he => by cases he)
  refine ⟨_, m', save_ok ht.inv L, e1, fun m'' hp => ⟨?_, ?_⟩⟩
  · have hfind : ∀ a : Word, (∃ x ∈ L, InRange x.2 a ∧ kindAt L a = some x.1) ∨
        ((∀ x ∈ L, ¬ InRange x.2 a) ∧ kindAt L a = none) := by
      intro a
      unfold kindAt
      cases hf : L.find? fun x => InRange x.2 a with
      | none =>
        refine .inr ⟨fun x hx => ?_, rfl⟩
        simpa using List.find?_eq_none.1 hf x hx
      | some x =>
        exact .inl ⟨x, List.mem_of_find?_eq_some hf, by simpa using List.find?_some hf, rfl⟩
    refine C81_segments ht (.rehash e2 hp) ?_ ?_
    · funext a
      rw [hk]
      obtain ⟨i1, i2⟩ := after_events (contents (Bus.after h) L) a Bus.empty g2
      rcases hfind a with ⟨x, hx, hin, hkx⟩ | ⟨hn, hkx⟩
      · rw [hkx]
        exact (i1 _ (List.mem_map_of_mem hx) hin).1.symm
      · rw [hkx]
        refine (i2 ?_).1.symm
        intro y hy
        obtain ⟨x, hx, rfl⟩ := List.mem_map.1 hy
        exact hn x hx
    · funext a
      obtain ⟨i1, i2⟩ := after_events (contents (Bus.after h) L) a Bus.empty g2
      rcases hfind a with ⟨x, hx, hin, hkx⟩ | ⟨hn, hkx⟩
      · exact (contents_val (Bus.after h) hin).symm.trans (i1 _ (List.mem_map_of_mem hx) hin).2.symm
      · have hz : (Bus.after h).val a = 0 := by
          rcases AddressMap.covered_or_not c.address_map.inner a with hu | ⟨r, d, he, ha⟩
          · exact (ht.inv.unmapped a hu).2
          · have := (ht.inv.mapped _ he a ha).1
            rw [hk, hkx] at this
            cases this
        rw [hz]
        refine (i2 ?_).2.symm
        intro y hy
        obtain ⟨x, hx, rfl⟩ := List.mem_map.1 hy
        exact hn x hx
  · show (⟨c.acc, c.x, c.y, c.sp, c.pc, ProcessorStatus.withValue c.ps.read⟩ : Regs) = _
    rw [C11_flags_round_trip]
    rfl

/-- C140: so the restored machine does what the saved one would have done, for any number of cycles: both
panic, with the same panic, or both end with the same registers and with buses that answer alike. -/
theorem C140_resumes (ht : MemTrace b h c.address_map) (hL : Sound L)
    (hk : ∀ a, (Bus.after h).owner a = kindAt L a) (n : Nat) :
    ∃ s m', save b L c = .ok s ∧ rebuild b AddressMap.new s.memory = .ok (.ok m') ∧
      ((∃ p, run b c n = .error p ∧ run b (restoreOn m' s) n = .error p) ∨
       ∃ d₁ d₂, run b c n = .ok (.ready d₁) ∧ run b (restoreOn m' s) n = .ok (.ready d₂) ∧ regs d₁ = regs d₂ ∧
        Alike b d₁.address_map d₂.address_map) := by
  obtain ⟨s, m', h1, h2, h3⟩ := C140_restores ht hL hk
  obtain ⟨h3, h4⟩ := h3 m' (List.Perm.refl _)
  exact ⟨s, m', h1, h2, C81_run n h4.symm h3⟩

/-- C140: saving the restored machine again, with the same plan, gives the same save state. -/
theorem C140_again (ht : MemTrace b h c.address_map) (hL : Sound L)
    (hk : ∀ a, (Bus.after h).owner a = kindAt L a) :
    ∃ s m', save b L c = .ok s ∧ rebuild b AddressMap.new s.memory = .ok (.ok m') ∧
      save b L (restoreOn m' s) = .ok s := by
  obtain ⟨s, m', h1, h2, h3⟩ := C140_restores ht hL hk
  obtain ⟨h3, h4⟩ := h3 m' (List.Perm.refl _)
  refine ⟨s, m', h1, h2, ?_⟩
  rw [← h1]
  have hr : ∀ r, readRange b (restoreOn m' s).address_map r = readRange b c.address_map r := by
    intro r
    unfold readRange
    congr 1
    funext k
    exact (h3.read _).symm
  unfold save
  simp only [hr]
  generalize restoreOn m' s = d at h4
  rw [show d.acc = c.acc from congrArg Regs.a h4, show d.x = c.x from congrArg Regs.x h4,
    show d.y = c.y from congrArg Regs.y h4, show d.sp = c.sp from congrArg Regs.sp h4,
    show d.pc = c.pc from congrArg Regs.pc h4, show d.ps = c.ps from congrArg Regs.p h4]

/-- C140: and a machine can be saved whenever a run has ended, with the same plan. -/
theorem C140_anytime (ht : MemTrace b h c.address_map) (hL : Sound L)
    (hk : ∀ a, (Bus.after h).owner a = kindAt L a) {k : Nat} {d : StepState (Mos6502 (AddressMap Memory))}
    (hd : run b c k = .ok d) (n : Nat) :
    ∃ s m', save b L d.unwrap = .ok s ∧ rebuild b AddressMap.new s.memory = .ok (.ok m') ∧
      ((∃ p, run b d.unwrap n = .error p ∧ run b (restoreOn m' s) n = .error p) ∨
       ∃ d₁ d₂, run b d.unwrap n = .ok (.ready d₁) ∧ run b (restoreOn m' s) n = .ok (.ready d₂) ∧
        regs d₁ = regs d₂ ∧ Alike b d₁.address_map d₂.address_map) := by
  have hS : ClosedUnderWrites b {m : AddressMap Memory | ∃ h', MemTrace b h' m ∧
      ∀ a, (Bus.after h').owner a = kindAt L a} := by
    rintro m ⟨h', t, o⟩ a v r m' hw
    refine ⟨_, .write t hw, fun x => ?_⟩
    rw [Bus.after_append, owner_step_write]
    exact o x
  obtain ⟨l, e, h1, -, rfl, -⟩ := C12_run_ok hd
  have hm : ∀ {c e : Mos6502 (AddressMap Memory)} {l}, Instructions b c l e →
      c.address_map ∈ {m : AddressMap Memory | ∃ h', MemTrace b h' m ∧
        ∀ a, (Bus.after h').owner a = kindAt L a} →
      e.address_map ∈ {m : AddressMap Memory | ∃ h', MemTrace b h' m ∧
        ∀ a, (Bus.after h').owner a = kindAt L a} := by
    intro c e l hl
    induction hl with
    | nil => exact id
    | cons hn _ ih => exact fun hc => ih (next_mem hS hc hn)
  have hm := hm h1 ⟨h, ht, hk⟩
  obtain ⟨h', t, o⟩ := hm
  exact C140_resumes t hL o n

/-- Without soundness this fails: `register` accepts a range around an existing one, but not the two in the
other order (C04), so the segments of such a machine cannot be registered again in every order. -/
theorem C140_overlap (b : Build) :
    (∃ m, rebuild b AddressMap.new
      [(.readOnly, ⟨0x10, 0x10⟩, [1]), (.readWrite, ⟨0x0f, 0x11⟩, [2, 2, 2])] = .ok (.ok m)) ∧
    ∃ e, rebuild b AddressMap.new
      [(.readWrite, ⟨0x0f, 0x11⟩, [2, 2, 2]), (.readOnly, ⟨0x10, 0x10⟩, [1])] = .ok (.error e) :=
  ⟨⟨_, rfl⟩, _, rfl⟩

end

/-! ### Concrete cases -/

/-- The plan of the demonstration machine. -/
def demoLayout : SegmentPlan :=
  [(.readWrite, ⟨0x0200, 0x7fff⟩), (.readOnly, ⟨0xffea, 0xffff⟩), (.readWrite, ⟨0x0000, 0x00ff⟩),
    (.readWrite, ⟨0x0100, 0x01ff⟩)]

/-- The same memory with the zero page, the stack and the RAM in one segment. -/
def demoLayout' : SegmentPlan := [(.readOnly, ⟨0xffea, 0xffff⟩), (.readWrite, ⟨0x0000, 0x7fff⟩)]

theorem demoLayout_sound : Sound demoLayout ∧ Sound demoLayout' := by
  refine ⟨⟨by decide, ?_⟩, by decide, ?_⟩
  · simp only [demoLayout, List.pairwise_cons, List.mem_cons, List.not_mem_nil, or_false]
    refine ⟨?_, ?_, ?_, fun _ => nofun, .nil⟩
    · rintro y (rfl | rfl | rfl) <;> exact not_overlap (by decide)
    · rintro y (rfl | rfl) <;> exact not_overlap (by decide)
    · rintro y rfl; exact not_overlap (by decide)
  · simp only [demoLayout', List.pairwise_cons, List.mem_cons, List.not_mem_nil, or_false]
    refine ⟨?_, fun _ => nofun, .nil⟩
    rintro y rfl; exact not_overlap (by decide)

theorem kindAt_cons (k : MemKind) (r : AddrRange) (L : SegmentPlan) (a : Word) :
    kindAt ((k, r) :: L) a = if InRange r a then some k else kindAt L a := by
  unfold kindAt
  rw [List.find?_cons]
  by_cases h : InRange r a
  · rw [if_pos h, decide_eq_true h]; rfl
  · rw [if_neg h, decide_eq_false h]

theorem demoLayout_kind (a : Word) : (Bus.after demoHistory).owner a = kindAt demoLayout a ∧
    (Bus.after demoHistory).owner a = kindAt demoLayout' a := by
  have t0 : (0x0000 : Word).toNat = 0 := rfl
  have t1 : (0x00ff : Word).toNat = 255 := rfl
  have t2 : (0x0100 : Word).toNat = 256 := rfl
  have t3 : (0x01ff : Word).toNat = 511 := rfl
  have t4 : (0x0200 : Word).toNat = 512 := rfl
  have t5 : (0x7fff : Word).toNat = 32767 := rfl
  have t6 : (0xffea : Word).toNat = 65514 := rfl
  have t7 : (0xffff : Word).toNat = 65535 := rfl
  have := a.isLt
  have hn : kindAt [] a = none := rfl
  simp only [Bus.after, demoHistory, List.foldl, Bus.step, Bus.empty, demoLayout, demoLayout', kindAt_cons, hn,
    InRange, t0, t1, t2, t3, t4, t5, t6, t7]
  constructor <;> (repeat' split) <;> first | rfl | omega

/-- So `C140_resumes` applies to the demonstration machine with both plans. -/
example (b : Build) (r : Regs) (n : Nat) (L : SegmentPlan) (hL : L = demoLayout ∨ L = demoLayout') :
    ∃ s m', save b L (withRegs r demoMap) = .ok s ∧ rebuild b AddressMap.new s.memory = .ok (.ok m') ∧
      ((∃ p, run b (withRegs r demoMap) n = .error p ∧ run b (restoreOn m' s) n = .error p) ∨
       ∃ d₁ d₂, run b (withRegs r demoMap) n = .ok (.ready d₁) ∧ run b (restoreOn m' s) n = .ok (.ready d₂) ∧
        regs d₁ = regs d₂ ∧ Alike b d₁.address_map d₂.address_map) := by
  rcases hL with rfl | rfl
  · exact C140_resumes (demoMap_trace b) demoLayout_sound.1 (fun a => (demoLayout_kind a).1) n
  · exact C140_resumes (demoMap_trace b) demoLayout_sound.2 (fun a => (demoLayout_kind a).2) n

end Verif.Props
