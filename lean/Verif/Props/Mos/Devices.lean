import Verif.Spec.Devices
import Verif.Proofs.Bus
import Verif.Props.Mos.Traffic
import Verif.Props.Mos.Peripheral
import Verif.Props.Chip8.Rom

/-!
# C88: each device is told exactly the stores to its own addresses
-/

namespace Verif.Props

open Verif Verif.Mos Verif.Spec Verif.Spec.Mos

section
variable {D : Type} [Addressable D] {b : Build}

theorem ownerOf_cons (r : AddrRange) (rs : List AddrRange) (a : Word) :
    ownerOf (r :: rs) a = if InRange r a then some 0 else (ownerOf rs a).map (· + 1) := by
  unfold ownerOf
  rw [List.findIdx?_cons]
  by_cases h : InRange r a <;> simp [h]

theorem writeEntries_owner {a : Word} {v x : Byte} {es es' : List (AddrRange × D)}
    (h : AddressMap.writeEntries b a v es = .ok (.ok x, es')) :
    ∃ i r d d', ownerOf (es.map Prod.fst) a = some i ∧ es[i]? = some (r, d) ∧
      Addressable.write b d a v = .ok (.ok x, d') ∧ es' = es.set i (r, d') := by
  induction es generalizing es' with
  | nil => cases h
  | cons e es ih =>
    obtain ⟨r, d⟩ := e
    unfold AddressMap.writeEntries at h
    rw [List.map_cons, ownerOf_cons]
    by_cases hc : r.contains a = true
    · rw [if_pos hc] at h
      rw [if_pos ((AddrRange.contains_iff r a).1 hc)]
      cases hw : Addressable.write b d a v with
      | error p => rw [hw] at h; cases h
      | ok y =>
        obtain ⟨res, d'⟩ := y
        rw [hw] at h
        cases h
        exact ⟨0, r, d, d', rfl, rfl, hw, rfl⟩
    · rw [if_neg hc] at h
      rw [if_neg (fun h' => hc ((AddrRange.contains_iff r a).2 h'))]
      cases hw : AddressMap.writeEntries b a v es with
      | error p => rw [hw] at h; cases h
      | ok y =>
        obtain ⟨res, es₁⟩ := y
        rw [hw] at h
        cases h
        obtain ⟨i, r', d', d'', h1, h2, h3, h4⟩ := ih hw
        exact ⟨i + 1, r', d', d'', by rw [h1]; rfl, h2, h3, by rw [h4]; rfl⟩

omit [Addressable D] in
theorem map_fst_set {es : List (AddrRange × D)} {i : Nat} {r : AddrRange} {d d' : D}
    (h : es[i]? = some (r, d)) : (es.set i (r, d')).map Prod.fst = es.map Prod.fst := by
  rw [List.map_set]
  apply List.ext_getElem?
  intro j
  rw [List.getElem?_set]
  split
  · rename_i hij
    subst hij
    rw [List.getElem?_map, h]
    have := (List.getElem?_eq_some_iff.1 h).1
    simp [this]
  · rfl

/-- C88, the bus: when a bus has taken a list of stores, its ranges are the same, every store had an
owner, and each device is what it was, told exactly the stores to the addresses it owns, in order. -/
theorem C88_devices {m m' : AddressMap D} {ws : List (Word × Byte)} (h : writeAll b m ws = .ok m') :
    m'.inner.map Prod.fst = m.inner.map Prod.fst ∧
    (∀ w ∈ ws, ∃ i, ownerOf (m.inner.map Prod.fst) w.1 = some i) ∧
    ∀ (i : Nat) r d, m.inner[i]? = some (r, d) → ∃ d', m'.inner[i]? = some (r, d') ∧
      writeAll b d (toldOf (m.inner.map Prod.fst) i ws) = .ok d' := by
  induction ws generalizing m with
  | nil =>
    cases h
    exact ⟨rfl, by simp, fun i r d hi => ⟨d, hi, rfl⟩⟩
  | cons w ws ih =>
    obtain ⟨a, v⟩ := w
    rw [writeAll] at h
    cases hw : Addressable.write b m a v with
    | error p => rw [hw] at h; cases h
    | ok y =>
      obtain ⟨res, m₁⟩ := y
      rw [hw] at h
      cases res with
      | error e => cases h
      | ok x =>
        change (AddressMap.writeEntries b a v m.inner).bind _ = _ at hw
        cases he : AddressMap.writeEntries b a v m.inner with
        | error p => rw [he] at hw; cases hw
        | ok z =>
          obtain ⟨res', es⟩ := z
          rw [he] at hw
          cases hw
          obtain ⟨i₀, r₀, d₀, d₀', o1, o2, o3, rfl⟩ := writeEntries_owner he
          obtain ⟨h1, h2, h3⟩ := ih h
          simp only [map_fst_set o2] at h1 h2 h3
          refine ⟨h1, ?_, ?_⟩
          · intro w hm
            rcases List.mem_cons.1 hm with rfl | hm
            · exact ⟨i₀, o1⟩
            · exact h2 w hm
          · intro i r d hi
            by_cases hii : i = i₀
            · subst hii
              rw [o2] at hi
              cases hi
              have hlt := (List.getElem?_eq_some_iff.1 o2).1
              obtain ⟨d', e1, e2⟩ := h3 i r₀ d₀' (by
                rw [List.getElem?_set, if_pos rfl]
                simp [hlt])
              refine ⟨d', e1, ?_⟩
              have : toldOf (m.inner.map Prod.fst) i ((a, v) :: ws) =
                  (a, v) :: toldOf (m.inner.map Prod.fst) i ws := by
                unfold toldOf
                rw [List.filter_cons, if_pos (by simp [o1])]
              rw [this, writeAll, o3]
              exact e2
            · obtain ⟨d', e1, e2⟩ := h3 i r d (by
                rw [List.getElem?_set, if_neg (fun e => hii e.symm)]
                exact hi)
              refine ⟨d', e1, ?_⟩
              have : toldOf (m.inner.map Prod.fst) i ((a, v) :: ws) =
                  toldOf (m.inner.map Prod.fst) i ws := by
                unfold toldOf
                rw [List.filter_cons, if_neg (by simp [o1]; omega)]
              rw [this]
              exact e2

omit [Addressable D] in
/-- If no two ranges of the bus overlap, the addresses a device owns are those of its range. -/
theorem told_disjoint {es : List (AddrRange × D)} (hd : DisjointEntries es) {i : Nat} {r : AddrRange}
    {d : D} (hi : es[i]? = some (r, d)) (ws : List (Word × Byte)) :
    toldOf (es.map Prod.fst) i ws = ws.filter fun w => decide (InRange r w.1) := by
  unfold toldOf
  congr 1
  funext w
  have : ownerOf (es.map Prod.fst) w.1 = some i ↔ InRange r w.1 := by
    unfold ownerOf
    obtain ⟨hlt, hget⟩ := List.getElem?_eq_some_iff.1 hi
    rw [List.findIdx?_eq_some_iff_getElem]
    constructor
    · rintro ⟨h1, h2, -⟩
      simp only [List.getElem_map, hget, decide_eq_true_eq] at h2
      exact h2
    · intro h
      refine ⟨by simpa using hlt, by simpa [hget] using h, ?_⟩
      intro j hj
      simp only [List.getElem_map, decide_eq_true_eq]
      intro h'
      have := List.pairwise_iff_getElem.1 hd j i (by omega) hlt hj
      rw [hget] at this
      exact this ⟨w.1, h', h⟩
  simp only [this]

/-- C88, the 6502: after any execution each device on the bus is what it was, told exactly the stores
of the program to its range, in order. -/
theorem C88_mos {c c' : Mos6502 (AddressMap D)} {l : List Operations} (h : Instructions b c l c')
    (hd : DisjointEntries c.address_map.inner) {i : Nat} {r : AddrRange} {d : D}
    (hi : c.address_map.inner[i]? = some (r, d)) :
    ∃ d', c'.address_map.inner[i]? = some (r, d') ∧
      writeAll b d ((programStores l).filter fun w => decide (InRange r w.1)) = .ok d' := by
  obtain ⟨-, -, h3⟩ := C88_devices (C67_bus_is_stores h)
  obtain ⟨d', e1, e2⟩ := h3 i r d hi
  rw [told_disjoint hd hi] at e2
  exact ⟨d', e1, e2⟩

/-- C88, the 6502's `run`. -/
theorem C88_mos_run {c : Mos6502 (AddressMap D)} {n : Nat} {s : StepState (Mos6502 (AddressMap D))}
    (h : run b c n = .ok s) (hd : DisjointEntries c.address_map.inner) :
    ∃ l, Instructions b c l s.unwrap ∧ ∀ (i : Nat) r d, c.address_map.inner[i]? = some (r, d) →
      ∃ d', s.unwrap.address_map.inner[i]? = some (r, d') ∧
        writeAll b d ((programStores l).filter fun w => decide (InRange r w.1)) = .ok d' := by
  obtain ⟨l, h1, -, -⟩ := C67_run h
  exact ⟨l, h1, fun i r d hi => C88_mos h1 hd hi⟩

/-- C88, the CHIP-8's `run`. -/
theorem C88_chip8 {R : Type} {env : Nat → Chip8.Env} {c : Chip8.Chip8 (AddressMap D) R} {n : Nat}
    {s : StepState (Chip8.Chip8 (AddressMap D) R)} (h : Chip8.run b env c n = .ok s)
    (hd : DisjointEntries c.address_space.inner) :
    ∃ mcs, Chip8.emitted b env n 0 c = .ok mcs ∧
      ∀ (i : Nat) r d, c.address_space.inner[i]? = some (r, d) →
        ∃ d', s.unwrap.address_space.inner[i]? = some (r, d') ∧
          writeAll b d ((Chip8.storesOf mcs).filter fun w => decide (InRange r w.1)) = .ok d' := by
  obtain ⟨mcs, h1, h2⟩ := Chip8.C84_chip8_bus h
  obtain ⟨-, -, h3⟩ := C88_devices h2
  refine ⟨mcs, h1, fun i r d hi => ?_⟩
  obtain ⟨d', e1, e2⟩ := h3 i r d hi
  rw [told_disjoint hd hi] at e2
  exact ⟨d', e1, e2⟩

end

/-! ### The versatile interface adapter of the examples -/

/-- C88, the adapter of `custom_peripheral_addr_space.rs` is made exactly if its four addresses exist;
an unchecked build makes it always. -/
theorem C88_via_new (b : Build) (base : Word) :
    (∃ v, Via.new b base = .ok v) ↔ b.overflowChecks = false ∨ base.toNat + 3 < 65536 := by
  have h1 : (1 : Word).toNat = 1 := rfl
  have h2 : (2 : Word).toNat = 2 := rfl
  have h3 : (3 : Word).toNat = 3 := rfl
  unfold Via.new addU16
  rw [h1, h2, h3]
  rcases b with ⟨⟨⟩⟩
  · simp
  · by_cases h : base.toNat + 3 < 65536
    · rw [if_neg (by omega), if_neg (by omega), if_neg (by omega)]
      simp [h]
    · simp only [h, or_false, Bool.true_eq_false, iff_false]
      rintro ⟨v, hv⟩
      by_cases q1 : 65536 ≤ base.toNat + 1
      · rw [if_pos ⟨trivial, q1⟩] at hv; cases hv
      · rw [if_neg (fun q => q1 q.2), Res.ok_bind] at hv
        by_cases q2 : 65536 ≤ base.toNat + 2
        · rw [if_pos ⟨trivial, q2⟩] at hv; cases hv
        · rw [if_neg (fun q => q2 q.2), Res.ok_bind, if_pos ⟨trivial, by omega⟩] at hv
          cases hv

/-- A store taken by the adapter. -/
theorem via_step {b : Build} {base : Word} (hb : base.toNat + 3 < 65536) {v : Via}
    (h1 : v.port_a_addr = base) (h2 : v.port_b_addr = base + 1) (h3 : v.port_a_mask = base + 2)
    (h4 : v.port_b_mask = base + 3) (a : Word) (x : Byte) :
    Addressable.write b (Device.via v) a x = .ok (
      if InRange ⟨base, base + 3⟩ a then (.ok x, Device.via { v with
        port_a := if a = base then x else v.port_a
        port_b := if a = base + 1 then x else v.port_b
        printed := v.printed ++ if a = base then [x] else [] })
      else (.error s!"unknown VIA write addrress: {a.toNat}", .via v)) := by
  have e1 : (base + 1).toNat = base.toNat + 1 := by
    rw [BitVec.toNat_add]; change (_ + 1) % 65536 = _; omega
  have e2 : (base + 2).toNat = base.toNat + 2 := by
    rw [BitVec.toNat_add]; change (_ + 2) % 65536 = _; omega
  have e3 : (base + 3).toNat = base.toNat + 3 := by
    rw [BitVec.toNat_add]; change (_ + 3) % 65536 = _; omega
  show (let (r, v') := v.write a x; (Except.ok (r, Device.via v') : Res _)) = _
  unfold Via.write
  rw [h1, h2, h3, h4]
  have hne : base ≠ base + 1 := fun h => by
    have := congrArg BitVec.toNat h
    omega
  by_cases ha : a = base
  · subst ha
    have hin : InRange ⟨a, a + 3⟩ a := ⟨Nat.le_refl _, by show _ ≤ (a + 3).toNat; omega⟩
    simp only [if_pos, if_pos hin, if_neg hne]
  · rw [if_neg ha]
    by_cases hb' : a = base + 1
    · subst hb'
      have hin : InRange ⟨base, base + 3⟩ (base + 1) :=
        ⟨by show base.toNat ≤ _; omega, by show _ ≤ (base + 3).toNat; omega⟩
      simp only [if_pos, if_pos hin, if_neg ha, List.append_nil]
    · rw [if_neg hb']
      have hta : a.toNat ≠ base.toNat := fun h => ha (BitVec.eq_of_toNat_eq h)
      have htb : a.toNat ≠ base.toNat + 1 := fun h => hb' (BitVec.eq_of_toNat_eq (h.trans e1.symm))
      by_cases hin : InRange ⟨base, base + 3⟩ a
      · have hc : (AddrRange.mk (base + 2) (base + 3)).contains a = true := by
          rw [AddrRange.contains_iff]
          obtain ⟨q1, q2⟩ := hin
          refine ⟨?_, q2⟩
          show (base + 2).toNat ≤ _
          simp only at q1
          omega
        simp only [if_pos hc, if_pos hin, if_neg ha, if_neg hb', List.append_nil]
        subst h1
        rw [← h2, ← h3, ← h4]
      · have hc : ¬ (AddrRange.mk (base + 2) (base + 3)).contains a = true := by
          rw [AddrRange.contains_iff]
          rintro ⟨q1, q2⟩
          apply hin
          refine ⟨?_, q2⟩
          simp only at q1 ⊢
          omega
        rw [if_neg hc, if_neg hin]

/-- C88, the adapter: it takes a list of stores exactly if they are all to its four addresses, and
then it has printed the bytes stored at its first address, in order, and its two ports hold the bytes
last stored at the first and the second. -/
theorem C88_via {b : Build} {base : Word} (hb : base.toNat + 3 < 65536) {v : Via}
    (hv : Via.new b base = .ok v) (ws : List (Word × Byte)) (d : Device) :
    writeAll b (Device.via v) ws = .ok d ↔
      (∀ w ∈ ws, InRange ⟨base, base + 3⟩ w.1) ∧
      d = .via { v with
        port_a := (lastWrite base ws).getD 0
        port_b := (lastWrite (base + 1) ws).getD 0
        printed := shownAt base ws } := by
  have key : ∀ (ws : List (Word × Byte)) (v : Via), v.port_a_addr = base → v.port_b_addr = base + 1 →
      v.port_a_mask = base + 2 → v.port_b_mask = base + 3 →
      (writeAll b (Device.via v) ws = .ok d ↔
        (∀ w ∈ ws, InRange ⟨base, base + 3⟩ w.1) ∧
        d = .via { v with
          port_a := (lastWrite base ws).getD v.port_a
          port_b := (lastWrite (base + 1) ws).getD v.port_b
          printed := v.printed ++ shownAt base ws }) := by
    intro ws
    induction ws with
    | nil =>
      intro v _ _ _ _
      simp only [writeAll, lastWrite, shownAt, List.filter_nil, List.map_nil, List.append_nil,
        Option.getD_none, List.not_mem_nil, false_implies, implies_true, true_and]
      constructor
      · intro h; cases h; rfl
      · rintro rfl; rfl
    | cons w ws ih =>
      obtain ⟨a, x⟩ := w
      intro v h1 h2 h3 h4
      rw [writeAll, via_step hb h1 h2 h3 h4]
      by_cases hin : InRange ⟨base, base + 3⟩ a
      · simp only [if_pos hin]
        refine (ih { v with
          port_a := if a = base then x else v.port_a
          port_b := if a = base + 1 then x else v.port_b
          printed := v.printed ++ if a = base then [x] else [] } h1 h2 h3 h4).trans ?_
        have e1 : (lastWrite base ws).getD (if a = base then x else v.port_a) =
            (lastWrite base ((a, x) :: ws)).getD v.port_a := by
          rw [lastWrite]
          cases lastWrite base ws with
          | some y => rfl
          | none => by_cases h : a = base <;> simp [h]
        have e2 : (lastWrite (base + 1) ws).getD (if a = base + 1 then x else v.port_b) =
            (lastWrite (base + 1) ((a, x) :: ws)).getD v.port_b := by
          rw [lastWrite]
          cases lastWrite (base + 1) ws with
          | some y => rfl
          | none =>
            show (if a = base + 1 then x else v.port_b) =
              (if a = base + 1 then some x else none).getD v.port_b
            split <;> rfl
        have e3 : (v.printed ++ if a = base then [x] else []) ++ shownAt base ws =
            v.printed ++ shownAt base ((a, x) :: ws) := by
          unfold shownAt
          rw [List.filter_cons]
          by_cases h : a = base <;> simp [h]
        simp only [e1, e2, e3, List.forall_mem_cons, hin, true_and]
      · simp only [if_neg hin]
        constructor
        · intro h; cases h
        · rintro ⟨h, -⟩
          exact absurd (h (a, x) (by simp)) hin
  have hf : v = ⟨base, base + 1, base + 2, base + 3, 0, 0, []⟩ := by
    have h1 : (1 : Word).toNat = 1 := rfl
    have h2 : (2 : Word).toNat = 2 := rfl
    have h3 : (3 : Word).toNat = 3 := rfl
    unfold Via.new addU16 at hv
    rw [h1, h2, h3, if_neg (by simp; omega), if_neg (by simp; omega), if_neg (by simp; omega)] at hv
    exact (Except.ok.inj hv).symm
  subst hf
  rw [key ws _ rfl rfl rfl rfl]
  simp only [List.nil_append]

/-- C88, a refused store leaves the adapter as it was and names the address; reading gives 0. -/
theorem C88_via_refuses {b : Build} {base : Word} (hb : base.toNat + 3 < 65536) {v : Via}
    (hv : Via.new b base = .ok v) (a : Word) (x : Byte) (ha : ¬ InRange ⟨base, base + 3⟩ a) :
    Addressable.write b (Device.via v) a x =
      .ok (.error s!"unknown VIA write addrress: {a.toNat}", .via v) ∧
    Addressable.read b (Device.via v) a = .ok 0 := by
  have h1 : (1 : Word).toNat = 1 := rfl
  have h2 : (2 : Word).toNat = 2 := rfl
  have h3 : (3 : Word).toNat = 3 := rfl
  unfold Via.new addU16 at hv
  rw [h1, h2, h3, if_neg (by simp; omega), if_neg (by simp; omega), if_neg (by simp; omega)] at hv
  cases hv
  rw [via_step hb rfl rfl rfl rfl, if_neg ha]
  exact ⟨rfl, rfl⟩

/-- C88, the adapter in a 6502 system: after any execution it has printed exactly the bytes the program
stored at its first address. -/
theorem C88_console {b : Build} {base : Word} (hb : base.toNat + 3 < 65536) {v : Via}
    (hv : Via.new b base = .ok v) {c c' : Mos6502 (AddressMap Device)} {l : List Operations}
    (h : Instructions b c l c') (hd : DisjointEntries c.address_map.inner) {i : Nat}
    (hi : c.address_map.inner[i]? = some (⟨base, base + 3⟩, .via v)) :
    ∃ v', c'.address_map.inner[i]? = some (⟨base, base + 3⟩, .via v') ∧
      v'.printed = shownAt base (programStores l) ∧
      v'.port_a = (lastWrite base (programStores l)).getD 0 ∧
      v'.port_b = (lastWrite (base + 1) (programStores l)).getD 0 := by
  obtain ⟨d', h1, h2⟩ := C88_mos h hd hi
  obtain ⟨-, rfl⟩ := (C88_via hb hv _ _).1 h2
  have e1 : (base + 1).toNat = base.toNat + 1 := by
    rw [BitVec.toNat_add]; change (_ + 1) % 65536 = _; omega
  have e3 : (base + 3).toNat = base.toNat + 3 := by
    rw [BitVec.toNat_add]; change (_ + 3) % 65536 = _; omega
  have hin0 : InRange ⟨base, base + 3⟩ base := ⟨Nat.le_refl _, by show _ ≤ (base + 3).toNat; omega⟩
  have hin1 : InRange ⟨base, base + 3⟩ (base + 1) :=
    ⟨by show base.toNat ≤ _; omega, by show _ ≤ (base + 3).toNat; omega⟩
  have hl : ∀ (p : Word) (ws : List (Word × Byte)), InRange ⟨base, base + 3⟩ p →
      lastWrite p (ws.filter fun w => decide (InRange ⟨base, base + 3⟩ w.1)) = lastWrite p ws := by
    intro p ws hp
    induction ws with
    | nil => rfl
    | cons w ws ih =>
      obtain ⟨a, x⟩ := w
      rw [List.filter_cons]
      by_cases ha : InRange ⟨base, base + 3⟩ a
      · rw [if_pos (by simpa using ha), lastWrite, lastWrite, ih]
      · rw [if_neg (by simpa using ha), ih, lastWrite]
        cases lastWrite p ws with
        | some y => rfl
        | none => rw [if_neg (fun (e : a = p) => ha (by rw [e]; exact hp))]
  refine ⟨_, h1, ?_, ?_, ?_⟩
  · show shownAt base _ = _
    unfold shownAt
    rw [List.filter_filter]
    congr 2
    funext w
    by_cases hw : w.1 = base
    · rw [hw, decide_eq_true hin0, Bool.and_true]
    · simp [hw]
  · show (lastWrite base _).getD 0 = _
    rw [hl _ _ hin0]
  · show (lastWrite (base + 1) _).getD 0 = _
    rw [hl _ _ hin1]

/-- C88, the adapter of `custom_peripheral_microcode_hook.rs`, shown any list of intercepted stores,
has printed those to its first address, and its two ports hold the bytes last stored at the first and
the second. -/
theorem C88_hook {b : Build} {base : Word} {v : HookVia} (hv : HookVia.new b base = .ok v)
    (ws : List (Word × Byte)) :
    ws.foldl (fun v w => v.write w.1 w.2) v =
      { v with
        port_a := (lastWrite base ws).getD 0
        port_b := (lastWrite (base + 1) ws).getD 0
        printed := shownAt base ws } := by
  have hne : base ≠ base + 1 := fun h => by
    have := congrArg BitVec.toNat h
    rw [BitVec.toNat_add] at this
    change _ = (_ + 1) % 65536 at this
    have := base.isLt
    omega
  have key : ∀ (ws : List (Word × Byte)) (v : HookVia), v.port_a_addr = base →
      v.port_b_addr = base + 1 →
      ws.foldl (fun v w => v.write w.1 w.2) v =
        { v with
          port_a := (lastWrite base ws).getD v.port_a
          port_b := (lastWrite (base + 1) ws).getD v.port_b
          printed := v.printed ++ shownAt base ws } := by
    intro ws
    induction ws with
    | nil => intro v _ _; simp [lastWrite, shownAt]
    | cons w ws ih =>
      obtain ⟨a, x⟩ := w
      intro v h1 h2
      rw [List.foldl_cons]
      show List.foldl _ (v.write a x) ws = _
      have hw : v.write a x = { v with
          port_a := if a = base then x else v.port_a
          port_b := if a = base + 1 then x else v.port_b
          printed := v.printed ++ if a = base then [x] else [] } := by
        unfold HookVia.write
        rw [h1, h2]
        by_cases h : a = base
        · have h' : a ≠ base + 1 := fun e => hne (h.symm.trans e)
          simp only [if_pos h, if_neg h']
        · by_cases h' : a = base + 1
          · simp only [if_pos h', if_neg h, List.append_nil]
          · simp only [if_neg h', if_neg h, List.append_nil]
            rw [← h2, ← h1]
      rw [ih _ (by rw [hw]; exact h1) (by rw [hw]; exact h2), hw]
      have e1 : (lastWrite base ws).getD (if a = base then x else v.port_a) =
          (lastWrite base ((a, x) :: ws)).getD v.port_a := by
        rw [lastWrite]
        cases lastWrite base ws with
        | some y => rfl
        | none =>
          show (if a = base then x else v.port_a) = (if a = base then some x else none).getD v.port_a
          split <;> rfl
      have e2 : (lastWrite (base + 1) ws).getD (if a = base + 1 then x else v.port_b) =
          (lastWrite (base + 1) ((a, x) :: ws)).getD v.port_b := by
        rw [lastWrite]
        cases lastWrite (base + 1) ws with
        | some y => rfl
        | none =>
          show (if a = base + 1 then x else v.port_b) =
            (if a = base + 1 then some x else none).getD v.port_b
          split <;> rfl
      have e3 : (v.printed ++ if a = base then [x] else []) ++ shownAt base ws =
          v.printed ++ shownAt base ((a, x) :: ws) := by
        unfold shownAt
        rw [List.filter_cons]
        by_cases h : a = base <;> simp [h]
      simp only [e1, e2, e3]
  have hf : v = ⟨base, base + 1, 0, 0, []⟩ := by
    unfold HookVia.new addU16 at hv
    split at hv
    · cases hv
    · exact (Except.ok.inj hv).symm
  subst hf
  rw [key ws _ rfl rfl]
  simp only [List.nil_append]

/-! ### Concrete cases -/

/-- The intercepting adapter shown five stores, one of them to an address it does not know. -/
example : [((0x8002 : Word), (0xff : Byte)), (0x8000, 0x55), (0x8001, 7), (0x8000, 0xaa), (0x9000, 8)].foldl
      (fun v w => v.write w.1 w.2) (⟨0x8000, 0x8001, 0, 0, []⟩ : HookVia) =
    ⟨0x8000, 0x8001, 0xaa, 7, [0x55, 0xaa]⟩ :=
  C88_hook (b := .debug) (base := 0x8000) rfl _

/-- Five stores on a bus whose second range lies inside the first: the first device gets its own and
those of the hidden one. -/
example : toldOf [⟨0x10, 0x1f⟩, ⟨0x12, 0x13⟩, ⟨0x40, 0x4f⟩] 0
      [(0x11, 1), (0x12, 2), (0x40, 3), (0x1f, 4), (0x4f, 5)] = [(0x11, 1), (0x12, 2), (0x1f, 4)] ∧
    toldOf [⟨0x10, 0x1f⟩, ⟨0x12, 0x13⟩, ⟨0x40, 0x4f⟩] 1
      [(0x11, 1), (0x12, 2), (0x40, 3), (0x1f, 4), (0x4f, 5)] = [] := by decide

/-- The adapter at 0x8000 told five stores. -/
example : writeAll .debug (Device.via ⟨0x8000, 0x8001, 0x8002, 0x8003, 0, 0, []⟩)
      [(0x8002, 0xff), (0x8000, 0x55), (0x8001, 7), (0x8000, 0xaa), (0x8001, 8)] =
    .ok (.via ⟨0x8000, 0x8001, 0x8002, 0x8003, 0xaa, 8, [0x55, 0xaa]⟩) :=
  (C88_via (base := 0x8000) (by decide) (v := ⟨0x8000, 0x8001, 0x8002, 0x8003, 0, 0, []⟩) rfl _ _).2
    ⟨by decide, rfl⟩

/-- The system of the example meets the hypotheses of `C88_console`. -/
example : DisjointEntries (viaEntries (viaAfter [])) ∧
    (viaEntries (viaAfter []))[0]? = some (⟨0x8000, 0x8000 + 3⟩, .via (viaAfter [])) ∧
    Via.new .debug 0x8000 = .ok (viaAfter []) :=
  ⟨viaEntries_disjoint _, rfl, rfl⟩

end Verif.Props
