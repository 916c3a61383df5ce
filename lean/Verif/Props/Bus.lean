import Verif.Proofs.BusMem
import Verif.Model.Page

/-!
# Properties C01 – C08: address map, memory, pages
-/

namespace Verif.Props

open Verif Verif.Spec

/-! ## C01 An address map of RAM segments is one flat memory -/

/-- After any history of registrations (of disjoint segments), rehashings and writes, every
address reads exactly what the abstract flat bus holds there; no read panics. -/
theorem C01_read_is_flat_memory {b : Build} {h : List BusEvent} {m : AddressMap Memory}
    (ht : MemTrace b h m) (a : Word) : m.read b a = .ok ((Bus.after h).val a) :=
  ht.inv.read b a

/-- A write never panics; it answers `Ok(value)` exactly on mapped RAM, and afterwards the map
reads as before everywhere else and as the new value at the written address. -/
theorem C01_write_is_flat_memory {b : Build} {h : List BusEvent} {m : AddressMap Memory}
    (ht : MemTrace b h m) (a : Word) (v : Byte) :
    ∃ res m', m.write b a v = .ok (res, m') ∧
      (res = .ok v ↔ (Bus.after h).owner a = some .readWrite) ∧
      (∀ x, x ≠ a → m'.read b x = m.read b x) ∧
      (res = .ok v → m'.read b a = .ok v) := by
  obtain ⟨res, m', h1, h2, h3⟩ := ht.inv.write b a v
  refine ⟨res, m', h1, ?_, ?_, ?_⟩
  · rw [h3]
    cases ho : (Bus.after h).owner a with
    | none => simp
    | some k => cases k <;> simp
  · intro x hx
    rw [h2.read b x, ht.inv.read b x]
    simp only [Bus.step]
    split <;> simp [hx]
  · intro hr
    rw [h2.read b a]
    have ho : (Bus.after h).owner a = some .readWrite := by
      rw [h3] at hr
      cases ho : (Bus.after h).owner a with
      | none => simp [ho] at hr
      | some k => cases k <;> simp [ho] at hr ⊢
    simp [Bus.step, ho]

/-- Writes only: starting from any reachable map, after any list of writes a RAM address reads
the byte last written to it, or what it read before if the list does not write it; a ROM or
unmapped address reads what it read before. -/
theorem C01_last_write_wins {b : Build} {h : List BusEvent} {m : AddressMap Memory}
    (ht : MemTrace b h m) (ws : List (Word × Byte)) :
    ∃ rs m', runOps b m (ws.map fun w => BusOp.write w.1 w.2) = .ok (rs, m') ∧
      ∀ a, m'.read b a =
        if (Bus.after h).owner a = some .readWrite then
          match lastWrite a ws with
          | some v => .ok v
          | none => m.read b a
        else m.read b a := by
  induction ws generalizing h m with
  | nil => exact ⟨[], m, rfl, fun a => by simp [lastWrite]⟩
  | cons w ws ih =>
    obtain ⟨x, v⟩ := w
    obtain ⟨res, m₁, h1, h2, -⟩ := ht.inv.write b x v
    have ht₁ : MemTrace b (h ++ [.write x v]) m₁ := MemTrace.write ht h1
    obtain ⟨rs, m', h3, h4⟩ := ih ht₁
    refine ⟨.write res :: rs, m', ?_, ?_⟩
    · have h1' : Addressable.write b m x v = .ok (res, m₁) := h1
      simp [runOps, h1', h3]
    · intro a
      rw [h4 a]
      have hown : (Bus.after (h ++ [.write x v])).owner a = (Bus.after h).owner a := by
        rw [Bus.after_append]; simp only [Bus.step]; split <;> rfl
      have hread : m₁.read b a = .ok (((Bus.after h).step (.write x v)).val a) := h2.read b a
      rw [hown, hread, ht.inv.read b a]
      by_cases hao : (Bus.after h).owner a = some .readWrite
      · simp only [hao, if_true, lastWrite]
        cases hl : lastWrite a ws with
        | some w => rfl
        | none =>
          by_cases hxa : x = a
          · subst hxa; simp [Bus.step, hao]
          · have hax : a ≠ x := fun h => hxa h.symm
            simp only [hxa, if_false, Bus.step]
            split <;> simp [hax]
      · simp only [hao, if_false, Bus.step]
        split
        · rename_i hx
          have hax : a ≠ x := by rintro rfl; exact hao hx
          simp [hax]
        · rfl

/-- A concrete two-segment bus: RAM at 0x10..=0x13 and a ROM at 0x8000..=0x8001. -/
def sampleMap : AddressMap Memory :=
  ⟨[(⟨0x8000, 0x8001⟩, ⟨.readOnly, 0x8000, 0x8001, [0xaa, 0xbb]⟩),
    (⟨0x10, 0x13⟩, ⟨.readWrite, 0x10, 0x13, [0, 0, 0, 0]⟩)]⟩

/-- The history that builds `sampleMap`. -/
def sampleHistory : List BusEvent :=
  [.register .readWrite ⟨0x10, 0x13⟩ [0, 0, 0, 0], .register .readOnly ⟨0x8000, 0x8001⟩ [0xaa, 0xbb]]

theorem sample_trace (b : Build) : MemTrace b sampleHistory sampleMap := by
  have h1 : MemTrace b [.register .readWrite ⟨0x10, 0x13⟩ [0, 0, 0, 0]]
      ⟨[(⟨0x10, 0x13⟩, ⟨.readWrite, 0x10, 0x13, [0, 0, 0, 0]⟩)]⟩ :=
    MemTrace.register (h := []) (m := AddressMap.new)
      (fresh := ⟨.readWrite, 0x10, 0x13, [0, 0, 0, 0]⟩) MemTrace.new rfl rfl
      (by simp [AddressMap.new]) ⟨_, rfl, List.Perm.refl _⟩
  refine MemTrace.register (h := [.register .readWrite ⟨0x10, 0x13⟩ [0, 0, 0, 0]])
    (fresh := ⟨.readOnly, 0x8000, 0x8001, [0, 0]⟩) h1 rfl rfl ?_ ⟨_, rfl, List.Perm.refl _⟩
  intro e he
  simp at he
  subst he
  rintro ⟨a, ⟨h1, -⟩, ⟨-, h2⟩⟩
  simp at h1 h2
  omega

/-- Non-vacuity of the C01 theorems: a reachable map, a RAM address in it, and a write to it. -/
example : (Bus.after sampleHistory).owner 0x12 = some .readWrite ∧
    lastWrite 0x12 [(0x12, 7), (0x13, 9), (0x12, 8)] = some 8 := by decide

/-! ## C02 Unmapped addresses read as zero and reject writes without side effects -/

/-- For any kind of device: an address in no registered range reads 0, and a write to it is
answered with `Err` and leaves the whole map as it was. -/
theorem C02_unmapped {D : Type} [Addressable D] (b : Build) (m : AddressMap D) (a : Word)
    (h : ∀ e ∈ m.inner, ¬ InRange e.1 a) :
    m.read b a = .ok 0 ∧ ∀ v, ∃ msg, m.write b a v = .ok (.error msg, m) :=
  ⟨AddressMap.read_of_find_none b m a h, fun v => ⟨_, AddressMap.write_none b a v m h⟩⟩

/-- Only the device whose range contains the address sees a write: every other entry of the map
is untouched (disjoint ranges, any device, any answer). -/
theorem C02_write_isolation {D : Type} [Addressable D] (b : Build) (m : AddressMap D)
    (hd : DisjointEntries m.inner) (a : Word) (v : Byte) {res : Except String Byte}
    {m' : AddressMap D} (hw : m.write b a v = .ok (res, m')) (r : AddrRange) (d : D)
    (ha : ¬ InRange r a) : (r, d) ∈ m.inner ↔ (r, d) ∈ m'.inner := by
  rcases AddressMap.covered_or_not m.inner a with h | ⟨s, d₀, he, hsa⟩
  · rw [AddressMap.write_none b a v m h] at hw
    injection hw with hw; injection hw with _ hw
    rw [← hw]
  · rw [AddressMap.write_of_mem b a v m hd he hsa] at hw
    cases hdw : Addressable.write b d₀ a v with
    | error p => simp [hdw] at hw
    | ok p =>
      simp [hdw] at hw
      rw [← hw.2]
      simp only [AddressMap.updateAt, List.mem_map]
      constructor
      · intro hm
        exact ⟨(r, d), hm, by simp [(AddrRange.contains_eq_false_iff r a).2 ha]⟩
      · rintro ⟨f, hf, hfe⟩
        by_cases hc : f.1.contains a = true
        · simp only [hc, if_true] at hfe
          have : f.1 = r := congrArg Prod.fst hfe
          rw [this] at hc
          exact absurd ((AddrRange.contains_iff r a).1 hc) ha
        · simp only [hc] at hfe
          rw [← hfe]; exact hf

/-- Non-vacuity: `sampleMap` has mapped and unmapped addresses. -/
example : (∀ e ∈ sampleMap.inner, ¬ InRange e.1 0x14) ∧ (∃ e ∈ sampleMap.inner, InRange e.1 0x13) := by
  decide

/-! ## C03 ROM contents can never change through the bus -/

/-- Once a read-only segment holding `data` has been registered, then after every further history
each of its addresses still reads the loaded byte, and every write to it is refused with the
documented message. -/
theorem C03_rom_is_immutable {b : Build} {h : List BusEvent} {m : AddressMap Memory}
    (ht : MemTrace b h m) {r : AddrRange} {data : List Byte}
    (hreg : BusEvent.register .readOnly r data ∈ h) (a : Word) (ha : InRange r a) :
    (∃ byte, data[a.toNat - r.start.toNat]? = some byte ∧ m.read b a = .ok byte) ∧
    ∀ v, ∃ m', m.write b a v = .ok (.error "memory is read-only", m') ∧
      ∀ x, m'.read b x = m.read b x := by
  have key : (Bus.after h).owner a = some .readOnly ∧
      (Bus.after h).val a = data.getD (a.toNat - r.start.toNat) 0 ∧
      a.toNat - r.start.toNat < data.length := by
    induction ht with
    | new => simp at hreg
    | @register h m m' kind r' fresh data' ht hnew hlen hn hr ih =>
      rw [Bus.after_append]
      rcases List.mem_append.1 hreg with hreg | hreg
      · obtain ⟨ih1, ih2, ih3⟩ := ih hreg
        have hnr : ¬ InRange r' a := by
          intro hra
          rcases AddressMap.covered_or_not m.inner a with hc | ⟨s, d, he, hsa⟩
          · rw [(ht.inv.unmapped a hc).1] at ih1; cases ih1
          · exact hn _ he ⟨a, hra, hsa⟩
        simp [Bus.step, hnr, ih1, ih2, ih3]
      · simp at hreg
        obtain ⟨rfl, rfl, rfl⟩ := hreg
        have hl : a.toNat - r.start.toNat < data.length := by
          obtain ⟨-, h2, h3, h4⟩ := Memory.new_ok hnew
          obtain ⟨ha1, ha2⟩ := ha
          have hlen' := hlen
          simp only [Memory.dump, h4, List.length_replicate] at hlen'
          omega
        simp [Bus.step, ha, hl]
    | rehash _ _ ih => exact ih hreg
    | @write h m m' x v res ht hw ih =>
      rw [Bus.after_append]
      have hreg' : BusEvent.register .readOnly r data ∈ h := by
        rcases List.mem_append.1 hreg with hreg | hreg
        · exact hreg
        · simp at hreg
      obtain ⟨ih1, ih2, ih3⟩ := ih hreg'
      simp only [Bus.step]
      split
      · rename_i hx
        have : a ≠ x := by rintro rfl; rw [ih1] at hx; cases hx
        simp [this, ih1, ih2, ih3]
      · exact ⟨ih1, ih2, ih3⟩
  refine ⟨⟨data[a.toNat - r.start.toNat], List.getElem?_eq_getElem key.2.2, ?_⟩, fun v => ?_⟩
  · rw [ht.inv.read b a, key.2.1]
    simp [key.2.2]
  obtain ⟨res, m', h1, h2, h3⟩ := ht.inv.write b a v
  rw [key.1] at h3
  refine ⟨m', by rw [h1, h3], fun x => ?_⟩
  rw [h2.read b x, ht.inv.read b x]
  simp [Bus.step, key.1]

/-- Non-vacuity: a ROM registration in a reachable history, and an address in it. -/
example : BusEvent.register .readOnly ⟨0x8000, 0x8001⟩ [0xaa, 0xbb] ∈ sampleHistory ∧
    InRange ⟨0x8000, 0x8001⟩ 0x8001 := by
  constructor
  · simp [sampleHistory]
  · decide

/-! ## C04 Registration never lets two devices claim the same address -/

/-- The full statement of C04 for one registration. -/
def C04_statement : Prop :=
  ∀ (D : Type) (m : AddressMap D) (r : AddrRange) (d : D),
    (∃ e ∈ m.inner, Overlap r e.1) → ∃ msg, m.register r d = .error msg

/-- C04 is false: a range that strictly encloses a registered one is accepted. -/
theorem C04_overlap_accepted : ¬ C04_statement := by
  intro h
  obtain ⟨msg, hm⟩ := h Unit ⟨[(⟨0x10, 0x1f⟩, ())]⟩ ⟨0x00, 0xff⟩ ()
    ⟨_, List.mem_singleton.2 rfl, 0x15, by decide, by decide⟩
  simp [AddressMap.register, AddressMap.conflicts, AddrRange.contains] at hm

/-- What does hold: an accepted range that overlaps a registered one strictly encloses it. Missing
for the full property: the enclosing case, which the code accepts. -/
theorem C04_partial {D : Type} (m : AddressMap D) (r : AddrRange) (d : D) {m' : AddressMap D}
    (hacc : m.register r d = .ok m') :
    ∀ e ∈ m.inner, Overlap r e.1 →
      r.start.toNat < e.1.start.toNat ∧ e.1.stop.toNat < r.stop.toNat := by
  intro e he ⟨a, ⟨h1, h2⟩, ⟨h3, h4⟩⟩
  unfold AddressMap.register at hacc
  split at hacc
  · cases hacc
  · rename_i hc
    have hc' : AddressMap.conflicts r e.1 = false := by
      by_cases h : AddressMap.conflicts r e.1 = true
      · exact absurd (List.any_eq_true.2 ⟨e, he, h⟩) hc
      · simpa using h
    simp only [AddressMap.conflicts, Bool.or_eq_false_iff, AddrRange.contains_eq_false_iff,
      InRange] at hc'
    omega

/-- Exactly: a non-empty range is accepted iff it strictly encloses every registered range that it
overlaps. -/
theorem C04_accepted_iff_partial {D : Type} (m : AddressMap D) (r : AddrRange) (d : D)
    (hr : r.start.toNat ≤ r.stop.toNat) :
    (∃ m', m.register r d = .ok m') ↔ ∀ e ∈ m.inner, Overlap r e.1 →
      r.start.toNat < e.1.start.toNat ∧ e.1.stop.toNat < r.stop.toNat := by
  refine ⟨fun ⟨m', h⟩ => C04_partial m r d h, fun h => ?_⟩
  unfold AddressMap.register
  rw [if_neg]
  · exact ⟨_, rfl⟩
  · intro hc
    obtain ⟨e, he, hce⟩ := List.any_eq_true.1 hc
    simp only [AddressMap.conflicts, Bool.or_eq_true, AddrRange.contains_iff, InRange] at hce
    rcases hce with hce | hce
    · have := h e he ⟨r.start, ⟨Nat.le_refl _, hr⟩, hce⟩
      omega
    · have := h e he ⟨r.stop, ⟨hr, Nat.le_refl _⟩, hce⟩
      omega

/-- Registrations in which no new range strictly encloses a registered one. -/
inductive BuildTrace {D : Type} : AddressMap D → Prop
  | new : BuildTrace AddressMap.new
  | register {m m' : AddressMap D} {r : AddrRange} {d : D} : BuildTrace m →
      (∀ e ∈ m.inner, ¬ (r.start.toNat < e.1.start.toNat ∧ e.1.stop.toNat < r.stop.toNat)) →
      AddressMap.Registers m r d m' → BuildTrace m'

/-- With that proviso, every address is served by at most one device, after any number of
registrations. -/
theorem C04_disjoint_partial {D : Type} {m : AddressMap D} (h : BuildTrace m) :
    ∀ e ∈ m.inner, ∀ f ∈ m.inner, ∀ a, InRange e.1 a → InRange f.1 a → e = f := by
  have hd : DisjointEntries m.inner := by
    induction h with
    | new => exact List.Pairwise.nil
    | @register m m' r d _ hn hr ih =>
      refine AddressMap.disjoint_perm (AddressMap.registers_perm hr).symm
        (AddressMap.disjoint_insert ih ?_)
      obtain ⟨m₀, h1, -⟩ := hr
      intro e he ho
      exact hn e he (C04_partial m r d h1 e he ho)
  intro e he f hf a hea hfa
  exact AddressMap.eq_of_disjoint hd he hf hea hfa

/-- Non-vacuity of `C04_partial`: an accepted, overlapping registration exists. -/
example : ∃ m' : AddressMap Unit,
    AddressMap.register ⟨[(⟨0x10, 0x1f⟩, ())]⟩ ⟨0x00, 0xff⟩ () = .ok m' ∧
      Overlap ⟨0x00, 0xff⟩ ⟨0x10, 0x1f⟩ :=
  ⟨_, rfl, 0x15, by decide, by decide⟩

/-- Non-vacuity of `C04_disjoint_partial`: two adjacent registrations. -/
example : BuildTrace (⟨[(⟨0x20, 0x2f⟩, 2), (⟨0x10, 0x1f⟩, 1)]⟩ : AddressMap Nat) := by
  refine BuildTrace.register (m := ⟨[(⟨0x10, 0x1f⟩, 1)]⟩) (r := ⟨0x20, 0x2f⟩) (d := 2) ?_
    (by decide) ⟨_, rfl, List.Perm.refl _⟩
  exact BuildTrace.register (m := AddressMap.new) (r := ⟨0x10, 0x1f⟩) (d := 1) BuildTrace.new
    (by simp [AddressMap.new]) ⟨_, rfl, List.Perm.refl _⟩

/-! ## C05 Registration fails exactly on an endpoint conflict and otherwise only adds the range -/

/-- `register` is refused iff the first or last address of the new range lies in a registered
range. -/
theorem C05_refused_iff {D : Type} (m : AddressMap D) (r : AddrRange) (d : D) :
    (∃ msg, m.register r d = .error msg) ↔
      ∃ e ∈ m.inner, InRange e.1 r.start ∨ InRange e.1 r.stop := by
  unfold AddressMap.register
  constructor
  · rintro ⟨msg, h⟩
    split at h
    · rename_i hc
      obtain ⟨e, he, hce⟩ := List.any_eq_true.1 hc
      simp only [AddressMap.conflicts, Bool.or_eq_true, AddrRange.contains_iff] at hce
      exact ⟨e, he, hce⟩
    · cases h
  · rintro ⟨e, he, hce⟩
    have : m.inner.any (fun e => AddressMap.conflicts r e.1) = true := by
      refine List.any_eq_true.2 ⟨e, he, ?_⟩
      simp only [AddressMap.conflicts, Bool.or_eq_true, AddrRange.contains_iff]
      exact hce
    exact ⟨_, if_pos this⟩

/-- After a successful registration of a range that overlaps no registered one (in any resulting
iteration order): every address in the range is served by the new device with the absolute
address; every other address reads as before, and a write to it gives the same answer as it would
have before. (What later requests see is `C05_registration_ops` below.) -/
theorem C05_registration_frame {D : Type} [Addressable D] (b : Build) {m m' : AddressMap D}
    {r : AddrRange} {d : D} (hd : DisjointEntries m.inner)
    (hn : ∀ e ∈ m.inner, ¬ Overlap r e.1) (hr : AddressMap.Registers m r d m') (a : Word) :
    (InRange r a → m'.read b a = Addressable.read b d a) ∧
    (¬ InRange r a → m'.read b a = m.read b a) ∧
    (InRange r a → ∀ v, (m'.write b a v).map Prod.fst = (Addressable.write b d a v).map Prod.fst) ∧
    (¬ InRange r a → ∀ v, (m'.write b a v).map Prod.fst = (m.write b a v).map Prod.fst) := by
  have hp := AddressMap.registers_perm hr
  have hd' : DisjointEntries m'.inner :=
    AddressMap.disjoint_perm hp.symm (AddressMap.disjoint_insert hd hn)
  have hself : (r, d) ∈ m'.inner := hp.mem_iff.2 (AddressMap.mem_insert_self _ _ _)
  have hnone : ¬ InRange r a → (∀ e ∈ m.inner, ¬ InRange e.1 a) →
      ∀ e ∈ m'.inner, ¬ InRange e.1 a := by
    intro hra hc e he hea
    rcases AddressMap.mem_insert (hp.mem_iff.1 he) with rfl | ⟨h, -⟩
    · exact hra hea
    · exact hc e h hea
  have hkeep : ∀ s e, ¬ InRange r a → (s, e) ∈ m.inner → InRange s a → (s, e) ∈ m'.inner := by
    intro s e hra hse hsa
    refine hp.mem_iff.2 (AddressMap.mem_insert_of_mem hse ?_)
    rintro rfl
    exact hra hsa
  refine ⟨fun hra => AddressMap.read_of_mem b m' a hd' hself hra, fun hra => ?_,
    fun hra v => ?_, fun hra v => ?_⟩
  · rcases AddressMap.covered_or_not m.inner a with hc | ⟨s, e, hse, hsa⟩
    · rw [AddressMap.read_of_find_none b m a hc,
        AddressMap.read_of_find_none b m' a (hnone hra hc)]
    · rw [AddressMap.read_of_mem b m a hd hse hsa,
        AddressMap.read_of_mem b m' a hd' (hkeep s e hra hse hsa) hsa]
  · rw [AddressMap.write_of_mem b a v m' hd' hself hra]
    cases Addressable.write b d a v <;> rfl
  · rcases AddressMap.covered_or_not m.inner a with hc | ⟨s, e, hse, hsa⟩
    · rw [AddressMap.write_none b a v m hc, AddressMap.write_none b a v m' (hnone hra hc)]; rfl
    · rw [AddressMap.write_of_mem b a v m hd hse hsa,
        AddressMap.write_of_mem b a v m' hd' (hkeep s e hra hse hsa) hsa]
      cases Addressable.write b e a v <;> rfl

/-- Non-vacuity: a disjoint map and a successful registration beside it. -/
example : ∃ m', AddressMap.Registers sampleMap ⟨0x20, 0x2f⟩
      (⟨.readWrite, 0x20, 0x2f, List.replicate 16 0⟩ : Memory) m' ∧
    DisjointEntries sampleMap.inner ∧ ∀ e ∈ sampleMap.inner, ¬ Overlap ⟨0x20, 0x2f⟩ e.1 := by
  refine ⟨_, ⟨_, rfl, List.Perm.refl _⟩, (sample_trace Build.debug).inv.disjoint, ?_⟩
  intro e he
  simp [sampleMap] at he
  rintro ⟨a, ⟨h1, h2⟩, ⟨h3, h4⟩⟩
  rcases he with rfl | rfl <;> simp at h1 h2 h3 h4 <;> omega

/-! ## C06 Bus behaviour does not depend on HashMap iteration order -/

/-- Any sequence of reads and writes on two maps with the same disjoint entries in different
iteration orders gives the same answers (including panics), whatever the devices. -/
theorem C06_order_irrelevant {D : Type} [Addressable D] (b : Build) {m m' : AddressMap D}
    (hp : m.inner.Perm m'.inner) (hd : DisjointEntries m.inner) (ops : List BusOp) :
    (runOps b m ops).map Prod.fst = (runOps b m' ops).map Prod.fst := by
  induction ops generalizing m m' with
  | nil => rfl
  | cons op ops ih =>
    cases op with
    | read a =>
      have hr : Addressable.read b m a = Addressable.read b m' a := AddressMap.read_perm b hp hd a
      have hi := ih hp hd
      simp only [runOps, hr]
      cases Addressable.read b m' a with
      | error p => rfl
      | ok v =>
        simp only [Res.ok_bind]
        cases h1 : runOps b m ops with
        | error p => cases h2 : runOps b m' ops <;> simp_all [Except.map]
        | ok q => cases h2 : runOps b m' ops <;> simp_all [Except.map]
    | write a v =>
      rcases AddressMap.write_perm b hp hd a v with ⟨e, h1, h2⟩ | ⟨res, n, n', h1, h2, hnp⟩
      · have h1' : Addressable.write b m a v = .error e := h1
        have h2' : Addressable.write b m' a v = .error e := h2
        simp [runOps, h1', h2']
      · have h1' : Addressable.write b m a v = .ok (res, n) := h1
        have h2' : Addressable.write b m' a v = .ok (res, n') := h2
        have hi := ih hnp (AddressMap.write_disjoint b a v h1 hd)
        simp only [runOps, h1', h2', Res.ok_bind]
        cases h3 : runOps b n ops with
        | error p => cases h4 : runOps b n' ops <;> simp_all [Except.map]
        | ok q => cases h4 : runOps b n' ops <;> simp_all [Except.map]

/-- Disjointness is needed: with the overlapping entries that `register` accepts (C04) two
iteration orders of one map read differently. -/
theorem C06_order_matters_when_overlapping :
    ∃ m m' : AddressMap Memory, m.inner.Perm m'.inner ∧ ∀ b, m.read b 0x10 ≠ m'.read b 0x10 := by
  refine ⟨⟨[(⟨0x10, 0x10⟩, ⟨.readOnly, 0x10, 0x10, [1]⟩), (⟨0x0f, 0x11⟩, ⟨.readOnly, 0x0f, 0x11, [2, 2, 2]⟩)]⟩,
    ⟨[(⟨0x0f, 0x11⟩, ⟨.readOnly, 0x0f, 0x11, [2, 2, 2]⟩), (⟨0x10, 0x10⟩, ⟨.readOnly, 0x10, 0x10, [1]⟩)]⟩,
    List.Perm.swap _ _ _, ?_⟩
  rintro ⟨b⟩
  cases b <;> intro h <;> injection h with h <;> revert h <;> decide

/-- Non-vacuity: two different orders of a disjoint map. -/
example : ∃ m' : AddressMap Memory, sampleMap.inner.Perm m'.inner ∧ m'.inner ≠ sampleMap.inner ∧
    DisjointEntries sampleMap.inner := by
  refine ⟨⟨sampleMap.inner.reverse⟩, (List.reverse_perm _).symm, ?_,
    (sample_trace Build.debug).inv.disjoint⟩
  simp [sampleMap]

/-! ## C05, continued: whole request sequences after a registration -/

/-- Two entry lists that differ only in the devices of empty ranges. -/
private inductive SameUsed {D : Type} : List (AddrRange × D) → List (AddrRange × D) → Prop
  | nil : SameUsed [] []
  | cons {e f : AddrRange × D} {es fs : List (AddrRange × D)} :
      (e = f ∨ (e.1 = f.1 ∧ ∀ a, ¬ InRange e.1 a)) → SameUsed es fs → SameUsed (e :: es) (f :: fs)

/-- The device of an entry whose range is empty is never asked. -/
private theorem runOps_unused {D : Type} [Addressable D] (b : Build) {es fs : List (AddrRange × D)}
    (h : SameUsed es fs)
    (ops : List BusOp) :
    (runOps b (⟨es⟩ : AddressMap D) ops).map Prod.fst =
      (runOps b (⟨fs⟩ : AddressMap D) ops).map Prod.fst := by
  have hread : ∀ {es fs : List (AddrRange × D)},
      SameUsed es fs →
      ∀ a, (⟨es⟩ : AddressMap D).read b a = (⟨fs⟩ : AddressMap D).read b a := by
    intro es fs h a
    unfold AddressMap.read
    induction h with
    | nil => rfl
    | @cons e f es fs hef _ ih =>
      rcases hef with rfl | ⟨hk, he⟩
      · simp only [List.find?_cons]
        cases e.1.contains a with
        | true => rfl
        | false => exact ih
      · have h1 : e.1.contains a = false :=
          Bool.eq_false_iff.2 fun hc => he a ((AddrRange.contains_iff _ _).1 hc)
        simp only [List.find?_cons, ← hk, h1]
        exact ih
  have hwrite : ∀ {es fs : List (AddrRange × D)},
      SameUsed es fs →
      ∀ a v, (∃ p, AddressMap.writeEntries b a v es = .error p ∧
          AddressMap.writeEntries b a v fs = .error p) ∨
        ∃ res es' fs', AddressMap.writeEntries b a v es = .ok (res, es') ∧
          AddressMap.writeEntries b a v fs = .ok (res, fs') ∧
          SameUsed es' fs' := by
    intro es fs h a v
    induction h with
    | nil => exact .inr ⟨_, _, _, rfl, rfl, .nil⟩
    | @cons e f es fs hef htl ih =>
      obtain ⟨r, d⟩ := e
      obtain ⟨s, d'⟩ := f
      have hk : r = s := by
        rcases hef with h | ⟨h, -⟩
        · exact congrArg Prod.fst h
        · exact h
      subst hk
      simp only [AddressMap.writeEntries]
      cases hc : r.contains a with
      | true =>
        have hdd : d = d' := by
          rcases hef with h | ⟨-, h⟩
          · exact congrArg Prod.snd h
          · exact absurd ((AddrRange.contains_iff _ _).1 hc) (h a)
        subst hdd
        simp only [if_true]
        cases Addressable.write b d a v with
        | error p => exact .inl ⟨p, rfl, rfl⟩
        | ok q => exact .inr ⟨_, _, _, rfl, rfl, .cons (.inl rfl) htl⟩
      | false =>
        simp only [Bool.false_eq_true, if_false]
        rcases ih with ⟨p, h1, h2⟩ | ⟨res, es', fs', h1, h2, h3⟩
        · exact .inl ⟨p, by rw [h1]; rfl, by rw [h2]; rfl⟩
        · exact .inr ⟨res, _, _, by rw [h1]; rfl, by rw [h2]; rfl, .cons hef h3⟩
  induction ops generalizing es fs with
  | nil => rfl
  | cons op ops ih =>
    cases op with
    | read a =>
      have hr : Addressable.read b (⟨es⟩ : AddressMap D) a = Addressable.read b (⟨fs⟩ : AddressMap D) a :=
        hread h a
      have hi := ih h
      simp only [runOps, hr]
      cases Addressable.read b (⟨fs⟩ : AddressMap D) a with
      | error p => rfl
      | ok v =>
        simp only [Res.ok_bind]
        cases h1 : runOps b (⟨es⟩ : AddressMap D) ops with
        | error p => cases h2 : runOps b (⟨fs⟩ : AddressMap D) ops <;> simp_all [Except.map]
        | ok q => cases h2 : runOps b (⟨fs⟩ : AddressMap D) ops <;> simp_all [Except.map]
    | write a v =>
      rcases hwrite h a v with ⟨p, h1, h2⟩ | ⟨res, es', fs', h1, h2, h3⟩
      · have h1' : Addressable.write b (⟨es⟩ : AddressMap D) a v = .error p := by
          simp only [Addressable.write, AddressMap.write, h1]; rfl
        have h2' : Addressable.write b (⟨fs⟩ : AddressMap D) a v = .error p := by
          simp only [Addressable.write, AddressMap.write, h2]; rfl
        simp [runOps, h1', h2']
      · have h1' : Addressable.write b (⟨es⟩ : AddressMap D) a v = .ok (res, ⟨es'⟩) := by
          simp only [Addressable.write, AddressMap.write, h1]; rfl
        have h2' : Addressable.write b (⟨fs⟩ : AddressMap D) a v = .ok (res, ⟨fs'⟩) := by
          simp only [Addressable.write, AddressMap.write, h2]; rfl
        have hi := ih h3
        simp only [runOps, h1', h2', Res.ok_bind]
        cases h4 : runOps b (⟨es'⟩ : AddressMap D) ops with
        | error p => cases h5 : runOps b (⟨fs'⟩ : AddressMap D) ops <;> simp_all [Except.map]
        | ok q => cases h5 : runOps b (⟨fs'⟩ : AddressMap D) ops <;> simp_all [Except.map]

/-- Answers of a request sequence, in the shape used below. -/
private theorem answers_cons {D : Type} [Addressable D] (b : Build) (d : D) (op : BusOp)
    (ops : List BusOp) (rs : List BusAnswer) :
    (runOps b d (op :: ops)).map Prod.fst = .ok rs ↔
      ∃ r d₁ rest, rs = r :: rest ∧ runOps b d [op] = .ok ([r], d₁) ∧
        (runOps b d₁ ops).map Prod.fst = .ok rest := by
  cases op with
  | read a =>
    simp only [runOps]
    cases Addressable.read b d a with
    | error p => constructor <;> intro h <;> simp_all [Except.map]
    | ok v =>
      simp only [Res.ok_bind]
      cases hr : runOps b d ops with
      | error p =>
        constructor
        · intro h; simp_all [Except.map]
        · rintro ⟨r, d₁, rest, -, h1, h2⟩
          simp only [Except.ok.injEq, Prod.mk.injEq] at h1
          obtain ⟨-, rfl⟩ := h1
          rw [hr] at h2; cases h2
      | ok q =>
        constructor
        · intro h
          refine ⟨_, _, q.1, ?_, rfl, by rw [hr]; rfl⟩
          simp only [Res.ok_bind, Except.map] at h
          exact (Except.ok.inj h).symm
        · rintro ⟨r, d₁, rest, rfl, h1, h2⟩
          simp only [Except.ok.injEq, Prod.mk.injEq, List.cons.injEq, and_true] at h1
          obtain ⟨rfl, rfl⟩ := h1
          rw [hr] at h2
          simp only [Except.map, Except.ok.injEq] at h2
          subst h2; rfl
  | write a v =>
    simp only [runOps]
    cases Addressable.write b d a v with
    | error p => constructor <;> intro h <;> simp_all [Except.map]
    | ok w =>
      simp only [Res.ok_bind]
      cases hr : runOps b w.2 ops with
      | error p =>
        constructor
        · intro h; simp_all [Except.map]
        · rintro ⟨r, d₁, rest, -, h1, h2⟩
          simp only [Except.ok.injEq, Prod.mk.injEq] at h1
          obtain ⟨-, rfl⟩ := h1
          rw [hr] at h2; cases h2
      | ok q =>
        constructor
        · intro h
          refine ⟨_, _, q.1, ?_, rfl, by rw [hr]; rfl⟩
          simp only [Res.ok_bind, Except.map] at h
          exact (Except.ok.inj h).symm
        · rintro ⟨r, d₁, rest, rfl, h1, h2⟩
          simp only [Except.ok.injEq, Prod.mk.injEq, List.cons.injEq, and_true] at h1
          obtain ⟨rfl, rfl⟩ := h1
          rw [hr] at h2
          simp only [Except.map, Except.ok.injEq] at h2
          subst h2; rfl

/-- One request on a map whose first entry is the new device. -/
private theorem one_cons {D : Type} [Addressable D] (b : Build) (es : List (AddrRange × D))
    (r : AddrRange) (d : D) (op : BusOp) (ans : BusAnswer) (m₁ : AddressMap D) :
    runOps b (⟨(r, d) :: es⟩ : AddressMap D) [op] = .ok ([ans], m₁) ↔
      if InRange r op.addr then ∃ d₁, runOps b d [op] = .ok ([ans], d₁) ∧ m₁ = ⟨(r, d₁) :: es⟩
      else ∃ n : AddressMap D, runOps b (⟨es⟩ : AddressMap D) [op] = .ok ([ans], n) ∧
        m₁ = ⟨(r, d) :: n.inner⟩ := by
  have hc : r.contains op.addr = decide (InRange r op.addr) := by
    rw [Bool.eq_iff_iff, AddrRange.contains_iff, decide_eq_true_iff]
  cases op with
  | read a =>
    simp only [BusOp.addr] at hc ⊢
    by_cases h : InRange r a
    · simp only [h, decide_true] at hc
      simp only [h, if_true, runOps, Addressable.read, AddressMap.read, List.find?_cons, hc]
      cases Addressable.read b d a with
      | error p => constructor <;> intro h <;> simp_all
      | ok v =>
        simp only [Res.ok_bind, Except.ok.injEq, Prod.mk.injEq]
        constructor
        · rintro ⟨h1, h2⟩; exact ⟨d, ⟨h1, rfl⟩, h2.symm⟩
        · rintro ⟨d₁, ⟨h1, rfl⟩, rfl⟩; exact ⟨h1, rfl⟩
    · simp only [h, decide_false] at hc
      have hr : Addressable.read b (⟨(r, d) :: es⟩ : AddressMap D) a =
          Addressable.read b (⟨es⟩ : AddressMap D) a := by
        show AddressMap.read b _ a = AddressMap.read b _ a
        simp only [AddressMap.read, List.find?_cons, hc]
      simp only [h, if_false, runOps, hr]
      cases Addressable.read b (⟨es⟩ : AddressMap D) a with
      | error p => constructor <;> intro h <;> simp_all
      | ok v =>
        simp only [Res.ok_bind, Except.ok.injEq, Prod.mk.injEq]
        constructor
        · rintro ⟨h1, h2⟩; exact ⟨⟨es⟩, ⟨h1, rfl⟩, h2.symm⟩
        · rintro ⟨n, ⟨h1, rfl⟩, rfl⟩; exact ⟨h1, rfl⟩
  | write a v =>
    simp only [BusOp.addr] at hc ⊢
    by_cases h : InRange r a
    · simp only [h, decide_true] at hc
      simp only [h, if_true, runOps, Addressable.write, AddressMap.write, AddressMap.writeEntries, hc]
      cases Addressable.write b d a v with
      | error p => constructor <;> intro h <;> simp_all
      | ok w =>
        simp only [Res.ok_bind, Except.ok.injEq, Prod.mk.injEq]
        constructor
        · rintro ⟨h1, h2⟩; exact ⟨_, ⟨h1, rfl⟩, h2.symm⟩
        · rintro ⟨d₁, ⟨h1, rfl⟩, rfl⟩; exact ⟨h1, rfl⟩
    · simp only [h, decide_false] at hc
      simp only [h, if_false, runOps, Addressable.write, AddressMap.write, AddressMap.writeEntries, hc]
      simp only [Bool.false_eq_true, if_false]
      cases AddressMap.writeEntries b a v es with
      | error p => constructor <;> intro h <;> simp_all
      | ok w =>
        simp only [Res.ok_bind, Except.ok.injEq, Prod.mk.injEq]
        constructor
        · rintro ⟨h1, h2⟩; exact ⟨⟨w.2⟩, ⟨h1, rfl⟩, h2.symm⟩
        · rintro ⟨n, ⟨h1, rfl⟩, rfl⟩; exact ⟨h1, rfl⟩

private theorem cons_ops {D : Type} [Addressable D] (b : Build) (r : AddrRange)
    (ops : List BusOp) : ∀ (es : List (AddrRange × D)) (d : D) (rs : List BusAnswer),
    (runOps b (⟨(r, d) :: es⟩ : AddressMap D) ops).map Prod.fst = .ok rs ↔
      rs.length = ops.length ∧
      (runOps b d (ops.filter fun o => decide (InRange r o.addr))).map Prod.fst =
        .ok (answersTo (fun a => InRange r a) ops rs) ∧
      (runOps b (⟨es⟩ : AddressMap D) (ops.filter fun o => decide (¬ InRange r o.addr))).map Prod.fst =
        .ok (answersTo (fun a => ¬ InRange r a) ops rs) := by
  induction ops with
  | nil =>
    intro es d rs
    cases rs with
    | nil => simp [runOps, Except.map, answersTo]
    | cons x xs => simp [runOps, Except.map, answersTo]
  | cons op ops ih =>
    intro es d rs
    rw [answers_cons]
    cases rs with
    | nil => simp
    | cons x xs =>
      by_cases h : InRange r op.addr
      · have h1 : (op :: ops).filter (fun o => decide (InRange r o.addr)) =
            op :: ops.filter (fun o => decide (InRange r o.addr)) := by simp [h]
        have h2 : (op :: ops).filter (fun o => decide (¬ InRange r o.addr)) =
            ops.filter (fun o => decide (¬ InRange r o.addr)) := by simp [h]
        rw [h1, h2, answers_cons]
        simp only [answersTo, h, not_true_eq_false, if_true, if_false, List.length_cons,
          Nat.add_right_cancel_iff, one_cons, List.cons.injEq]
        constructor
        · rintro ⟨a, m₁, rest, ⟨rfl, rfl⟩, ⟨d₁, h3, rfl⟩, h4⟩
          obtain ⟨h5, h6, h7⟩ := (ih es d₁ xs).1 h4
          exact ⟨h5, ⟨x, d₁, _, ⟨rfl, rfl⟩, h3, h6⟩, h7⟩
        · rintro ⟨h5, ⟨a, d₁, rest, ⟨rfl, rfl⟩, h3, h6⟩, h7⟩
          exact ⟨x, _, xs, ⟨rfl, rfl⟩, ⟨d₁, h3, rfl⟩, (ih es d₁ xs).2 ⟨h5, h6, h7⟩⟩
      · have h1 : (op :: ops).filter (fun o => decide (InRange r o.addr)) =
            ops.filter (fun o => decide (InRange r o.addr)) := by simp [h]
        have h2 : (op :: ops).filter (fun o => decide (¬ InRange r o.addr)) =
            op :: ops.filter (fun o => decide (¬ InRange r o.addr)) := by simp [h]
        rw [h1, h2, answers_cons]
        simp only [answersTo, h, not_false_eq_true, if_true, if_false, List.length_cons,
          Nat.add_right_cancel_iff, one_cons, List.cons.injEq]
        constructor
        · rintro ⟨a, m₁, rest, ⟨rfl, rfl⟩, ⟨n, h3, rfl⟩, h4⟩
          obtain ⟨h5, h6, h7⟩ := (ih n.inner d xs).1 h4
          exact ⟨h5, h6, ⟨x, n, _, ⟨rfl, rfl⟩, h3, h7⟩⟩
        · rintro ⟨h5, h6, ⟨a, n, rest, ⟨rfl, rfl⟩, h3, h7⟩⟩
          exact ⟨x, _, xs, ⟨rfl, rfl⟩, ⟨n, h3, rfl⟩, (ih n.inner d xs).2 ⟨h5, h6, h7⟩⟩

/-- After a successful registration of a range that overlaps no registered one (in any resulting
iteration order), any sequence of requests is answered as by two separate worlds: the requests
inside the new range as by the new device alone, the others as by the bus as it was, each in
their order and with everything earlier requests of the same world changed. In particular the
sequence runs without a panic iff both parts do. -/
theorem C05_registration_ops {D : Type} [Addressable D] (b : Build) {m m' : AddressMap D}
    {r : AddrRange} {d : D} (hd : DisjointEntries m.inner)
    (hn : ∀ e ∈ m.inner, ¬ Overlap r e.1) (hr : AddressMap.Registers m r d m')
    (ops : List BusOp) (rs : List BusAnswer) :
    (runOps b m' ops).map Prod.fst = .ok rs ↔
      rs.length = ops.length ∧
      (runOps b d (ops.filter fun o => decide (InRange r o.addr))).map Prod.fst =
        .ok (answersTo (fun a => InRange r a) ops rs) ∧
      (runOps b m (ops.filter fun o => decide (¬ InRange r o.addr))).map Prod.fst =
        .ok (answersTo (fun a => ¬ InRange r a) ops rs) := by
  have hp := AddressMap.registers_perm hr
  have hd' : DisjointEntries m'.inner :=
    AddressMap.disjoint_perm hp.symm (AddressMap.disjoint_insert hd hn)
  rw [C06_order_irrelevant b (m' := ⟨AddressMap.insert m.inner r d⟩) hp hd' ops, ← cons_ops]
  unfold AddressMap.insert
  split
  · rename_i hmem
    obtain ⟨e, he, hek⟩ := List.mem_map.1 hmem
    have hempty : ∀ a, ¬ InRange r a := by
      intro a ha
      exact hn e he ⟨a, ha, by rw [hek]; exact ha⟩
    have hf : ∀ es : List (AddrRange × D),
        SameUsed
          (es.map (fun e => if e.1 = r then (r, d) else e)) es := by
      intro es
      induction es with
      | nil => exact .nil
      | cons e es ih =>
        refine .cons ?_ ih
        by_cases hk : e.1 = r
        · exact .inr ⟨by simp [hk], by simpa [hk] using hempty⟩
        · exact .inl (by simp [hk])
    rw [runOps_unused b (hf m.inner) ops, cons_ops]
    have h1 : ops.filter (fun o => decide (InRange r o.addr)) = [] := by simp [hempty]
    have h2 : ops.filter (fun o => decide (¬ InRange r o.addr)) = ops := by simp [hempty]
    have h3 : ∀ (ops : List BusOp) (rs : List BusAnswer), rs.length = ops.length →
        answersTo (fun a => InRange r a) ops rs = [] ∧
        answersTo (fun a => ¬ InRange r a) ops rs = rs := by
      intro ops
      induction ops with
      | nil => intro rs h; cases rs <;> simp_all [answersTo]
      | cons o ops ih =>
        intro rs h
        cases rs with
        | nil => simp at h
        | cons x xs => simp_all [answersTo]
    have hlen : ∀ (ops : List BusOp) (m : AddressMap D) rs,
        (runOps b m ops).map Prod.fst = .ok rs → rs.length = ops.length := by
      intro ops
      induction ops with
      | nil => intro m rs h; simp [runOps, Except.map] at h; simp [← h]
      | cons o ops ih =>
        intro m rs h
        obtain ⟨x, d₁, rest, rfl, -, h2⟩ := (answers_cons b m o ops rs).1 h
        simp [ih _ _ h2]
    rw [h1, h2]
    constructor
    · intro h
      have hl := hlen _ _ _ h
      obtain ⟨h4, h5⟩ := h3 ops rs hl
      exact ⟨hl, by rw [h4]; rfl, by rw [h5]; exact h⟩
    · rintro ⟨hl, -, h⟩
      rw [(h3 ops rs hl).2] at h
      exact h
  · rfl

/-- Non-vacuity: on `sampleMap` with RAM registered beside it, two writes, one on either side, are
both seen by the later reads. -/
example : ∃ m', AddressMap.Registers sampleMap ⟨0x20, 0x2f⟩
      (⟨.readWrite, 0x20, 0x2f, List.replicate 16 0⟩ : Memory) m' ∧
    (runOps Build.debug m' [.write 0x21 7, .write 0x11 9, .read 0x21, .read 0x11]).map Prod.fst =
      .ok [.write (.ok 7), .write (.ok 9), .read 7, .read 9] :=
  ⟨_, ⟨_, rfl, List.Perm.refl _⟩, rfl⟩

/-! ## C07 Memory segments: new, load and dump agree with read and write -/

/-- A new segment over a non-empty range dumps as one zero per address. -/
theorem C07_new_dump (b : Build) (kind : MemKind) (start stop : Word)
    (h : start.toNat ≤ stop.toNat) :
    ∃ m, Memory.new b kind start stop = .ok m ∧
      m.dump = List.replicate (stop.toNat - start.toNat + 1) 0 :=
  ⟨_, if_pos h, rfl⟩

/-- With `stop < start` a checked build panics, and an unchecked build panics too except for the
empty segment `stop + 1 = start`. -/
theorem C07_new_reversed (b : Build) (kind : MemKind) (start stop : Word)
    (h : stop.toNat < start.toNat) :
    (∃ p, Memory.new b kind start stop = .error p) ∨
      (b.overflowChecks = false ∧ stop.toNat + 1 = start.toNat ∧
        ∃ m, Memory.new b kind start stop = .ok m ∧ m.dump = []) := by
  unfold Memory.new
  rw [if_neg (by omega)]
  by_cases hb : b.overflowChecks = true
  · left; exact ⟨_, if_pos hb⟩
  · rw [if_neg hb]
    by_cases he : stop.toNat + 1 = start.toNat
    · right; exact ⟨by simpa using hb, he, _, if_pos he, rfl⟩
    · left; exact ⟨_, if_neg he⟩

/-- `load(data).dump() == data`, and the segment keeps its kind and addresses. -/
theorem C07_load_dump (m : Memory) (data : List Byte) :
    (m.load data).dump = data ∧ (m.load data).start = m.start ∧ (m.load data).stop = m.stop ∧
      (m.load data).kind = m.kind := ⟨rfl, rfl, rfl, rfl⟩

/-- After `load(data)` the address `start + i` reads `data[i]`; beyond the image the access
panics (it does not wrap, and does not return a default). -/
theorem C07_read_loaded (b : Build) (m : Memory) (data : List Byte) (a : Word) (i : Nat)
    (ha : a.toNat = m.start.toNat + i) :
    (m.load data).read b a =
      if h : i < data.length then .ok data[i] else .error .bounds := by
  have hle : (m.load data).start.toNat ≤ a.toNat := by simp [Memory.load]; omega
  rw [Memory.read_of_le b _ a hle]
  have hi : a.toNat - (m.load data).start.toNat = i := by simp [Memory.load]; omega
  rw [hi]
  by_cases h : i < data.length
  · simp [index, Memory.load, h]
  · simp [index, Memory.load, h]

/-- A write of `v` at `start + i` in RAM replaces position `i` of the dump and nothing else. -/
theorem C07_write_dump (b : Build) (m : Memory) (hk : m.kind = .readWrite) (a : Word) (v : Byte)
    (i : Nat) (ha : a.toNat = m.start.toNat + i) (hi : i < m.dump.length) :
    ∃ m', m.write b a v = .ok (.ok v, m') ∧ m'.dump = m.dump.set i v ∧
      m'.start = m.start ∧ m'.stop = m.stop ∧ m'.kind = m.kind := by
  have hle : m.start.toNat ≤ a.toNat := by omega
  have hix : a.toNat - m.start.toNat = i := by omega
  refine ⟨_, Memory.write_rw_of_le b m a v hk hle (by rw [hix]; exact hi), ?_, rfl, rfl, rfl⟩
  simp [Memory.dump, hix]

/-- Below its start a segment panics in a checked build; an unchecked build wraps the offset. -/
theorem C07_read_below (b : Build) (m : Memory) (a : Word) (h : a.toNat < m.start.toNat) :
    m.read b a = if b.overflowChecks then .error .overflow
      else index m.inner (65536 + a.toNat - m.start.toNat) := by
  cases hb : b.overflowChecks
  · have hs : (a - m.start).toNat = 65536 + a.toNat - m.start.toNat := by
      rw [BitVec.toNat_sub]; have := a.isLt; have := m.start.isLt; omega
    simp [Memory.read, subU16, hb, hs]
  · simp [Memory.read, subU16, hb, h]

/-- A segment whose image covers its declared range never panics inside it, for reads and
writes. -/
theorem C07_no_panic_in_range (b : Build) (m : Memory) (a : Word)
    (hcov : m.stop.toNat - m.start.toNat < m.dump.length)
    (ha : InRange ⟨m.start, m.stop⟩ a) :
    (∃ v, m.read b a = .ok v) ∧ ∀ v, ∃ r, m.write b a v = .ok r := by
  obtain ⟨h1, h2⟩ := ha
  simp only at h1 h2
  have hlt : a.toNat - m.start.toNat < m.inner.length := by
    simp only [Memory.dump] at hcov; omega
  refine ⟨⟨m.inner[a.toNat - m.start.toNat], ?_⟩, fun v => ?_⟩
  · rw [Memory.read_of_le b m a h1]; simp [index, hlt]
  · cases hk : m.kind with
    | readOnly => exact ⟨_, Memory.write_ro b m a v hk⟩
    | readWrite => exact ⟨_, Memory.write_rw_of_le b m a v hk h1 hlt⟩

/-- Coverage is needed: the documentation example of `register_address_space`
(`src/cpu/mos6502/mod.rs:82-91`) loads 0x1000 bytes over the 0x1001 addresses 0x6000..=0x7000, and
reading its last address panics in every build. -/
theorem C07_doc_example_panics (b : Build) (m : Memory)
    (hm : Memory.new b .readOnly 0x6000 0x7000 = .ok m) :
    (m.load (List.replicate 0x1000 0xea)).read b 0x7000 = .error .bounds := by
  have hs := (Memory.new_ok hm).2.1
  rw [C07_read_loaded b m _ 0x7000 0x1000 (by rw [hs]; rfl)]
  rw [dif_neg (by rw [List.length_replicate]; omega)]

/-- Non-vacuity of the C07 theorems. -/
example : ∃ m : Memory, m.kind = .readWrite ∧ m.stop.toNat - m.start.toNat < m.dump.length ∧
    InRange ⟨m.start, m.stop⟩ 0x12 ∧ (0x12 : Word).toNat = m.start.toNat + 2 ∧
    (0x05 : Word).toNat < m.start.toNat :=
  ⟨⟨.readWrite, 0x10, 0x13, [1, 2, 3, 4]⟩, by decide⟩

/-! ## C08 Pages partition the address space into aligned 256-byte blocks -/

/-- Building a page never overflows, and it contains exactly the addresses with the same high
byte. -/
theorem C08_page_contains (b : Build) (addr : Word) :
    ∃ p, Page.ofU16 b addr = .ok p ∧
      ∀ other, p.contains other = true ↔ other.toNat / 256 = addr.toNat / 256 := by
  have hlt := addr.isLt
  have hmod : (addr % (0xff + 1 : Word)).toNat = addr.toNat % 256 := by
    rw [BitVec.toNat_umod]; rfl
  obtain ⟨e1, -⟩ := addU16_of_lt b 0xff 1 (by decide)
  obtain ⟨e2, n2⟩ := subU16_of_le b 0xff (addr % (0xff + 1)) (by rw [hmod]; simp; omega)
  rw [hmod] at n2
  have n2' : ((0xff : Word) - addr % (0xff + 1)).toNat = 255 - addr.toNat % 256 := n2
  obtain ⟨e3, n3⟩ := addU16_of_lt b addr (0xff - addr % (0xff + 1)) (by rw [n2']; omega)
  obtain ⟨e4, n4⟩ := subU16_of_le b (addr + (0xff - addr % (0xff + 1))) 0xff
    (by rw [n3, n2']; simp; omega)
  refine ⟨⟨addr + (0xff - addr % (0xff + 1)) - 0xff, addr + (0xff - addr % (0xff + 1))⟩,
    by simp only [Page.ofU16, e1, e2, e3, e4, Res.ok_bind], ?_⟩
  intro other
  have h255 : (0xff : Word).toNat = 255 := rfl
  simp only [Page.contains, Bool.and_eq_true, decide_eq_true_eq, n4, n3, n2', h255]
  omega

/-- A page made from a byte is the zero page. -/
theorem C08_page_of_byte (z : Byte) (other : Word) :
    (Page.ofU8 z).contains other = true ↔ other.toNat / 256 = 0 := by
  have h255 : (0xff : Word).toNat = 255 := rfl
  simp only [Page.ofU8, Page.contains, Bool.and_eq_true, decide_eq_true_eq, h255]
  simp
  omega

/-- Two addresses are in each other's page or in neither: pages partition the address space. -/
theorem C08_pages_partition (b : Build) (x y : Word) {p q : Page}
    (hp : Page.ofU16 b x = .ok p) (hq : Page.ofU16 b y = .ok q) :
    (p.contains y = true → p = q) ∧ (p.contains y = false → ∀ z, ¬ (p.contains z ∧ q.contains z)) := by
  obtain ⟨p', hp', h1⟩ := C08_page_contains b x
  obtain ⟨q', hq', h2⟩ := C08_page_contains b y
  rw [hp] at hp'; rw [hq] at hq'
  injection hp' with hp'; injection hq' with hq'
  subst hp'; subst hq'
  have ext : ∀ u v : Page, u.lower.toNat ≤ u.upper.toNat → v.lower.toNat ≤ v.upper.toNat →
      (∀ z, u.contains z = true ↔ v.contains z = true) → u = v := by
    intro u v hu hv h
    have a1 := (h u.lower).1 (by simp [Page.contains]; omega)
    have a2 := (h u.upper).1 (by simp [Page.contains]; omega)
    have a3 := (h v.lower).2 (by simp [Page.contains]; omega)
    have a4 := (h v.upper).2 (by simp [Page.contains]; omega)
    simp only [Page.contains, Bool.and_eq_true, decide_eq_true_eq] at a1 a2 a3 a4
    cases u; cases v
    simp only [Page.mk.injEq]
    exact ⟨BitVec.eq_of_toNat_eq (by simp_all; omega), BitVec.eq_of_toNat_eq (by simp_all; omega)⟩
  constructor
  · intro hy
    have hxy := (h1 y).1 hy
    refine ext p q ?_ ?_ ?_
    · have := (h1 x).2 rfl
      simp only [Page.contains, Bool.and_eq_true, decide_eq_true_eq] at this; omega
    · have := (h2 y).2 rfl
      simp only [Page.contains, Bool.and_eq_true, decide_eq_true_eq] at this; omega
    · intro z; rw [h1 z, h2 z, hxy]
  · intro hy z ⟨hz1, hz2⟩
    have a := (h1 z).1 hz1
    have c := (h2 z).1 hz2
    have : p.contains y = true := (h1 y).2 (by omega)
    rw [hy] at this; cases this

/-- Non-vacuity: pages at a boundary. -/
example : Page.ofU16 Build.debug 0xffff = .ok ⟨0xff00, 0xffff⟩ ∧
    Page.ofU16 Build.debug 0x12ab = .ok ⟨0x1200, 0x12ff⟩ := by decide

end Verif.Props
