import Verif.Spec.GenericMap
import Verif.Model.Chip8.Ring
import Verif.Props.Chip8.Ring

/-!
# Property C93: the address map for every type of addresses and values
-/

namespace Verif.Props

open Verif Verif.Generic Verif.Spec.Generic

section
variable {O V D : Type} [Offset O] [Inhabited V] [Device O V D] {b : Build} {m m' : Map O D}

/-- What one request does to the entry `e`. -/
def entryStep (b : Build) (q : Request O V) (r : Answer V) (e e' : Range O × D) : Prop :=
  e'.1 = e.1 ∧ if e.1.contains q.addr = true then ask b e.2 q = .ok (r, e'.2) else e'.2 = e.2

theorem each_same {α : Type} {R : α → α → Prop} {xs ys : List α} (hR : ∀ x ∈ xs, ∀ y, R x y ↔ y = x) :
    Each R xs ys ↔ ys = xs := by
  induction xs generalizing ys with
  | nil => cases ys <;> simp [Each]
  | cons x xs ih =>
    cases ys with
    | nil => simp [Each]
    | cons y ys =>
      simp only [Each, List.cons.injEq]
      rw [hR x (by simp), ih fun z hz => hR z (by simp [hz])]

omit [Inhabited V] in
theorem entryStep_off {q : Request O V} {r : Answer V} {e e' : Range O × D} (h : e.1.contains q.addr = false) :
    entryStep b q r e e' ↔ e' = e := by
  unfold entryStep
  rw [h]
  obtain ⟨x, y⟩ := e
  obtain ⟨x', y'⟩ := e'
  simp

theorem ask_hit {rg : Range O} {d : D} {es : List (Range O × D)} {q : Request O V}
    (hc : rg.contains q.addr = true) :
    ask b (⟨(rg, d) :: es⟩ : Map O D) q = (ask b d q).map fun x => (x.1, ⟨(rg, x.2) :: es⟩) := by
  cases q with
  | read a =>
    change rg.contains a = true at hc
    simp only [ask, Device.read, Map.read, List.find?_cons, hc]
    cases Device.read (V := V) b d a <;> rfl
  | write a v =>
    change rg.contains a = true at hc
    simp only [ask, Device.write, Map.write, Map.writeEntries, hc, if_true]
    cases Device.write (V := V) b d a v with
    | error e => rfl
    | ok x => rfl

theorem ask_miss {rg : Range O} {d : D} {es : List (Range O × D)} {q : Request O V}
    (hc : rg.contains q.addr = false) :
    ask b (⟨(rg, d) :: es⟩ : Map O D) q =
      (ask b (⟨es⟩ : Map O D) q).map fun x => (x.1, ⟨(rg, d) :: x.2.inner⟩) := by
  cases q with
  | read a =>
    change rg.contains a = false at hc
    simp only [ask, Device.read, Map.read, List.find?_cons, hc]
    cases List.find? (fun e => e.fst.contains a) es with
    | none => rfl
    | some e =>
      show (do let v ← Device.read b e.2 a; _) = Except.map _ (do let v ← Device.read b e.2 a; _)
      cases Device.read (V := V) b e.2 a <;> rfl
  | write a v =>
    change rg.contains a = false at hc
    simp only [ask, Device.write, Map.write, Map.writeEntries, hc]
    cases Map.writeEntries (V := V) b a v es <;> rfl

/-- One request to the map. -/
theorem map_step (hd : NoSharing m.inner) (q : Request O V) (r : Answer V) :
    ask b m q = .ok (r, m') ↔ Each (entryStep b q r) m.inner m'.inner ∧
      ((∀ e ∈ m.inner, e.1.contains q.addr = false) → r = nobody q) := by
  obtain ⟨es⟩ := m
  obtain ⟨es'⟩ := m'
  change NoSharing es at hd
  show _ ↔ Each (entryStep b q r) es es' ∧ ((∀ e ∈ es, e.1.contains q.addr = false) → r = nobody q)
  induction es generalizing es' with
  | nil =>
    have e1 : ask b (⟨[]⟩ : Map O D) q = .ok (nobody q, ⟨[]⟩) := by cases q <;> rfl
    rw [e1]
    constructor
    · intro h
      simp only [Except.ok.injEq, Prod.mk.injEq, Map.mk.injEq] at h
      obtain ⟨rfl, rfl⟩ := h
      exact ⟨trivial, fun _ => rfl⟩
    · rintro ⟨h1, h2⟩
      rw [h2 (fun e he => by cases he)]
      cases es' with
      | nil => rfl
      | cons => cases h1
  | cons e es ih =>
    obtain ⟨rg, d⟩ := e
    have hd' := List.pairwise_cons.1 hd
    by_cases hc : rg.contains q.addr = true
    · have hrest : ∀ f ∈ es, f.1.contains q.addr = false := by
        intro f hf
        cases hfc : f.1.contains q.addr with
        | false => rfl
        | true => exact absurd ⟨hc, hfc⟩ (hd'.1 f hf q.addr)
      have hno : ¬ ∀ f ∈ (rg, d) :: es, f.1.contains q.addr = false := by
        intro h
        have := h _ (List.mem_cons_self ..)
        rw [hc] at this
        cases this
      rw [ask_hit hc]
      cases es' with
      | nil =>
        simp only [Each, false_and, iff_false]
        cases ask b d q <;> simp [Except.map]
      | cons f es' =>
        obtain ⟨rg', d'⟩ := f
        simp only [Each, hno, false_implies, and_true]
        rw [each_same fun x hx y => entryStep_off (hrest x hx)]
        unfold entryStep
        rw [if_pos hc]
        cases hq : ask b d q with
        | error e => simp [Except.map]
        | ok x =>
          obtain ⟨r', d''⟩ := x
          simp only [Except.map, Except.ok.injEq, Prod.mk.injEq, Map.mk.injEq, List.cons.injEq]
          constructor
          · rintro ⟨rfl, ⟨rfl, rfl⟩, rfl⟩; exact ⟨⟨rfl, rfl, rfl⟩, rfl⟩
          · rintro ⟨⟨rfl, rfl, rfl⟩, rfl⟩; exact ⟨rfl, ⟨rfl, rfl⟩, rfl⟩
    · have hc' : rg.contains q.addr = false := by simpa using hc
      rw [ask_miss hc']
      cases es' with
      | nil =>
        simp only [Each, false_and, iff_false]
        cases ask b (⟨es⟩ : Map O D) q <;> simp [Except.map]
      | cons f es' =>
        simp only [Each]
        rw [entryStep_off hc']
        have hall : (∀ e ∈ (rg, d) :: es, e.1.contains q.addr = false) ↔
            ∀ e ∈ es, e.1.contains q.addr = false := by
          simp only [List.mem_cons, forall_eq_or_imp, hc', true_and]
        rw [hall, and_assoc, ← ih es' hd'.2]
        cases ask b (⟨es⟩ : Map O D) q with
        | error e => simp [Except.map]
        | ok x =>
          obtain ⟨r', ⟨es''⟩⟩ := x
          simp only [Except.map, Except.ok.injEq, Prod.mk.injEq, Map.mk.injEq, List.cons.injEq]
          constructor
          · rintro ⟨rfl, rfl, rfl⟩; exact ⟨rfl, rfl, rfl⟩
          · rintro ⟨rfl, rfl, rfl⟩; exact ⟨rfl, rfl, rfl⟩

omit [Inhabited V] in
theorem each_keys {q : Request O V} {r : Answer V} {es es' : List (Range O × D)}
    (h : Each (entryStep b q r) es es') : es'.map Prod.fst = es.map Prod.fst := by
  induction es generalizing es' with
  | nil => cases es' with
    | nil => rfl
    | cons => cases h
  | cons e es ih => cases es' with
    | nil => cases h
    | cons f es' => rw [List.map_cons, List.map_cons, ih h.2, h.1.1]

theorem noSharing_keys {es es' : List (Range O × D)} (h : es'.map Prod.fst = es.map Prod.fst)
    (hd : NoSharing es) : NoSharing es' := by
  have key : ∀ l : List (Range O × D), NoSharing l ↔
      (l.map Prod.fst).Pairwise fun x y : Range O => ∀ a, ¬ (x.contains a = true ∧ y.contains a = true) := by
    intro l
    unfold NoSharing
    rw [List.pairwise_map]
  rw [key] at hd ⊢
  rw [h]
  exact hd

/-- C93: what a map of devices answers to any sequence of requests, and what becomes of it, is what
the devices do separately: each is given the requests in its own range, in their order and with
their full addresses, and nothing else; a request in no range reads the default value or is refused.
The map runs without a panic exactly if each device does. -/
theorem C93_separately (hd : NoSharing m.inner) (l : List (Request O V × Answer V)) :
    Answers b m l m' ↔
      Each (fun e e' => e'.1 = e.1 ∧ Answers b e.2 (only e.1.contains l) e'.2) m.inner m'.inner ∧
      ∀ x ∈ l, (∀ e ∈ m.inner, e.1.contains x.1.addr = false) → x.2 = nobody x.1 := by
  induction l generalizing m with
  | nil =>
    have : (fun e e' : Range O × D => e'.1 = e.1 ∧ Answers (V := V) b e.2 (only e.1.contains []) e'.2) =
        fun e e' => e' = e := by
      funext ⟨x, y⟩ ⟨x', y'⟩
      show (_ ∧ (Except.ok ([], y) : Res (List (Answer V) × D)) = .ok ([], y')) = _
      simp [eq_comm]
    rw [this, each_same (fun _ _ _ => Iff.rfl)]
    show (Except.ok ([], m) : Res (List (Answer V) × Map O D)) = .ok ([], m') ↔ _
    obtain ⟨es⟩ := m
    obtain ⟨es'⟩ := m'
    constructor
    · intro h
      simp only [Except.ok.injEq, Prod.mk.injEq, Map.mk.injEq, true_and] at h
      exact ⟨h.symm, fun x hx => by cases hx⟩
    · rintro ⟨h, -⟩
      rw [show es' = es from h]
  | cons x l ih =>
    obtain ⟨q, r⟩ := x
    have hsplit : ∀ {E : Type} [Device O V E] (l : List (Request O V × Answer V)) (d d' : E),
        Answers b d ((q, r) :: l) d' ↔ ∃ d₁, ask b d q = .ok (r, d₁) ∧ Answers b d₁ l d' := by
      intro E _ l d d'
      unfold Answers
      simp only [List.map_cons, askAll]
      cases ask b d q with
      | error e => simp
      | ok y =>
        obtain ⟨r', d₁⟩ := y
        simp only [Res.ok_bind, Except.ok.injEq, Prod.mk.injEq]
        cases hl : askAll b d₁ (l.map Prod.fst) with
        | error e =>
          simp only [Res.error_bind, reduceCtorEq, false_iff]
          rintro ⟨d₂, ⟨-, rfl⟩, h⟩
          rw [hl] at h
          cases h
        | ok z =>
          simp only [Res.ok_bind, Except.ok.injEq, Prod.mk.injEq, List.cons.injEq]
          constructor
          · rintro ⟨⟨rfl, h⟩, rfl⟩
            exact ⟨d₁, ⟨rfl, rfl⟩, by rw [hl, ← h]⟩
          · rintro ⟨d₂, ⟨rfl, rfl⟩, h⟩
            rw [hl] at h
            simp only [Except.ok.injEq, Prod.ext_iff] at h
            exact ⟨⟨rfl, h.1⟩, h.2⟩
    rw [hsplit]
    -- composition of the two relations, entry by entry
    have hcomp : ∀ (es es' : List (Range O × D)),
        Each (fun e e' => e'.1 = e.1 ∧ Answers b e.2 (only e.1.contains ((q, r) :: l)) e'.2) es es' ↔
        ∃ es₁, Each (entryStep b q r) es es₁ ∧
          Each (fun e e' => e'.1 = e.1 ∧ Answers b e.2 (only e.1.contains l) e'.2) es₁ es' := by
      intro es
      induction es with
      | nil =>
        intro es'
        constructor
        · intro h
          cases es' with
          | nil => exact ⟨[], trivial, trivial⟩
          | cons => cases h
        · rintro ⟨es₁, h1, h2⟩
          cases es₁ with
          | nil =>
            cases es' with
            | nil => exact trivial
            | cons => cases h2
          | cons => cases h1
      | cons e es ihes =>
        intro es'
        cases es' with
        | nil =>
          constructor
          · intro h; cases h
          · rintro ⟨es₁, h1, h2⟩
            cases es₁ with
            | nil => cases h1
            | cons => cases h2
        | cons f es' =>
          simp only [Each]
          rw [ihes es']
          have hone : (f.1 = e.1 ∧ Answers b e.2 (only e.1.contains ((q, r) :: l)) f.2) ↔
              ∃ e₁, entryStep b q r e e₁ ∧ f.1 = e₁.1 ∧ Answers b e₁.2 (only e₁.1.contains l) f.2 := by
            by_cases hc : e.1.contains q.addr = true
            · have : only e.1.contains ((q, r) :: l) = (q, r) :: only e.1.contains l := by
                unfold only; rw [List.filter_cons_of_pos (by exact hc)]
              rw [this, hsplit]
              constructor
              · rintro ⟨h0, d₁, h1, h2⟩
                exact ⟨(e.1, d₁), ⟨rfl, by rw [if_pos hc]; exact h1⟩, h0, h2⟩
              · rintro ⟨⟨k, d₁⟩, ⟨h1, h2⟩, h3, h4⟩
                change k = e.1 at h1
                subst h1
                rw [if_pos hc] at h2
                exact ⟨h3, d₁, h2, h4⟩
            · have : only e.1.contains ((q, r) :: l) = only e.1.contains l := by
                unfold only; rw [List.filter_cons_of_neg (by exact hc)]
              rw [this]
              constructor
              · rintro ⟨h0, h1⟩
                exact ⟨e, ⟨rfl, by rw [if_neg hc]⟩, h0, h1⟩
              · rintro ⟨⟨k, d₁⟩, ⟨h1, h2⟩, h3, h4⟩
                change k = e.1 at h1
                subst h1
                rw [if_neg hc] at h2
                change d₁ = e.2 at h2
                subst h2
                exact ⟨h3, h4⟩
          rw [hone]
          constructor
          · rintro ⟨⟨e₁, h1, h2, h3⟩, es₁, h4, h5⟩
            exact ⟨e₁ :: es₁, ⟨h1, h4⟩, ⟨h2, h3⟩, h5⟩
          · rintro ⟨es₁, h1, h2⟩
            cases es₁ with
            | nil => cases h1
            | cons e₁ es₁ => exact ⟨⟨e₁, h1.1, h2.1.1, h2.1.2⟩, es₁, h1.2, h2.2⟩
    rw [hcomp]
    constructor
    · rintro ⟨m₁, h1, h2⟩
      obtain ⟨h3, h4⟩ := (map_step hd q r).1 h1
      have hk := each_keys h3
      obtain ⟨h5, h6⟩ := (ih (noSharing_keys hk hd)).1 h2
      refine ⟨⟨m₁.inner, h3, h5⟩, ?_⟩
      intro x hx hn
      rcases List.mem_cons.1 hx with rfl | hx
      · exact h4 hn
      · refine h6 x hx fun e he => ?_
        have : e.1 ∈ m₁.inner.map Prod.fst := List.mem_map.2 ⟨e, he, rfl⟩
        rw [hk] at this
        obtain ⟨e', he', hee⟩ := List.mem_map.1 this
        rw [← hee]
        exact hn e' he'
    · rintro ⟨⟨es₁, h3, h5⟩, h6⟩
      have hk := each_keys h3
      refine ⟨⟨es₁⟩, (map_step hd q r).2 ⟨h3, fun h => h6 _ (List.mem_cons_self ..) h⟩,
        (ih (m := ⟨es₁⟩) (noSharing_keys hk hd)).2 ⟨h5, ?_⟩⟩
      intro x hx hn
      refine h6 x (List.mem_cons_of_mem _ hx) fun e he => ?_
      have : e.1 ∈ m.inner.map Prod.fst := List.mem_map.2 ⟨e, he, rfl⟩
      rw [← hk] at this
      obtain ⟨e', he', hee⟩ := List.mem_map.1 this
      rw [← hee]
      exact hn e' he'

theorem each_perm {α β : Type} {R : α → β → Prop} {xs xs' : List α} (hp : xs.Perm xs') :
    ∀ {ys : List β}, Each R xs ys → ∃ ys', Each R xs' ys' ∧ ys.Perm ys' := by
  induction hp with
  | nil => intro ys h; exact ⟨ys, h, .refl _⟩
  | cons x _ ih =>
    intro ys h
    cases ys with
    | nil => cases h
    | cons y ys =>
      obtain ⟨ys', h1, h2⟩ := ih h.2
      exact ⟨y :: ys', ⟨h.1, h1⟩, .cons _ h2⟩
  | swap x x' l =>
    intro ys h
    match ys, h with
    | y :: y' :: ys, h => exact ⟨y' :: y :: ys, ⟨h.2.1, h.1, h.2.2⟩, .swap ..⟩
    | [_], h => exact absurd h.2 (by simp [Each])
    | [], h => cases h
  | trans _ _ ih1 ih2 =>
    intro ys h
    obtain ⟨ys1, h1, p1⟩ := ih1 h
    obtain ⟨ys2, h2, p2⟩ := ih2 h1
    exact ⟨ys2, h2, p1.trans p2⟩

/-- C93: the iteration order of the map makes no difference. -/
theorem C93_order {m₂ : Map O D} (hd : NoSharing m.inner) (hp : m.inner.Perm m₂.inner)
    (l : List (Request O V × Answer V)) (h : Answers b m l m') :
    ∃ m₂', Answers b m₂ l m₂' ∧ m'.inner.Perm m₂'.inner := by
  obtain ⟨h1, h2⟩ := (C93_separately hd l).1 h
  obtain ⟨ys, h3, h4⟩ := each_perm hp h1
  have hd2 : NoSharing m₂.inner :=
    (hp.pairwise_iff fun hxy a ha => hxy a ⟨ha.2, ha.1⟩).1 hd
  exact ⟨⟨ys⟩, (C93_separately hd2 l).2 ⟨h3, fun x hx hn => h2 x hx fun e he => hn e (hp.subset he)⟩, h4⟩

end

section
variable {O D : Type} [Offset O] [DecidableEq O] {m m' : Map O D} {range : Range O} {dev : D}

/-- C93: a registration is refused exactly if a range of the map contains the first or the last
address of the new one, and the text names both ranges. -/
theorem C93_register_refused :
    (∃ t, m.register range dev = .error t) ↔
      ∃ e ∈ m.inner, e.1.contains range.start = true ∨ e.1.contains range.stop = true := by
  unfold Map.register
  by_cases h : m.inner.any (fun e => Map.conflicts range e.1) = true
  · rw [if_pos h]
    rw [List.any_eq_true] at h
    obtain ⟨e, he, hc⟩ := h
    refine Iff.intro (fun _ => ⟨e, he, by simpa [Map.conflicts] using hc⟩) (fun _ => ⟨_, rfl⟩)
  · rw [if_neg h]
    refine Iff.intro (fun ⟨t, ht⟩ => by cases ht) (fun ⟨e, he, hc⟩ => absurd ?_ h)
    rw [List.any_eq_true]
    exact ⟨e, he, by simpa [Map.conflicts] using hc⟩

/-- C93: the text of a refusal names the new range and one that contains an end of it. -/
theorem C93_register_text {t : String} (h : m.register range dev = .error t) :
    ∃ e ∈ m.inner, (e.1.contains range.start = true ∨ e.1.contains range.stop = true) ∧
      t = s!"address space {Offset.debug range.start}..={Offset.debug range.stop} overlaps with " ++
        s!"{Offset.debug e.1.start}..={Offset.debug e.1.stop}" := by
  unfold Map.register at h
  split at h
  · rename_i ha
    simp only [Except.error.injEq] at h
    rw [← h]
    unfold Map.overlapText
    cases hf : m.inner.find? (fun e => Map.conflicts range e.1) with
    | none =>
      rw [List.find?_eq_none] at hf
      rw [List.any_eq_true] at ha
      obtain ⟨e, he, hc⟩ := ha
      exact absurd hc (hf e he)
    | some e =>
      refine ⟨e, List.mem_of_find?_eq_some hf, by simpa [Map.conflicts] using List.find?_some hf, ?_⟩
      show "address space " ++ (_ ++ "..=" ++ _) ++ " overlaps with " ++ (_ ++ "..=" ++ _) =
        "address space " ++ _ ++ "..=" ++ _ ++ " overlaps with " ++ (_ ++ "..=" ++ _)
      simp only [String.append_assoc]
  · cases h

/-- C93: an accepted registration adds the device under its range, in the place of one that was there
under the same range, and changes nothing else. -/
theorem C93_register_entries (h : m.register range dev = .ok m') (e : Range O × D) :
    e ∈ m'.inner ↔ e = (range, dev) ∨ (e ∈ m.inner ∧ e.1 ≠ range) := by
  unfold Map.register at h
  split at h
  · cases h
  · simp only [Except.ok.injEq] at h
    rw [← h]
    simp only [Map.insert]
    split
    · rename_i hk
      rw [List.mem_map]
      constructor
      · rintro ⟨f, hf, rfl⟩
        by_cases hr : f.1 = range
        · rw [if_pos hr]; exact .inl rfl
        · rw [if_neg hr]; exact .inr ⟨hf, hr⟩
      · rintro (rfl | ⟨h1, h2⟩)
        · obtain ⟨f, hf, hr⟩ := List.mem_map.1 hk
          exact ⟨f, hf, by rw [if_pos hr]⟩
        · exact ⟨e, h1, by rw [if_neg h2]⟩
    · rename_i hk
      rw [List.mem_cons]
      constructor
      · rintro (rfl | h1)
        · exact .inl rfl
        · exact .inr ⟨h1, fun hr => hk (List.mem_map.2 ⟨e, h1, hr⟩)⟩
      · rintro (rfl | ⟨h1, -⟩)
        · exact .inl rfl
        · exact .inr h1

omit [Offset O] in
theorem noSharing_insert_keys (m : Map O D) (range : Range O) (dev : D) :
    (Map.insert m.inner range dev).map Prod.fst =
      if range ∈ m.inner.map Prod.fst then m.inner.map Prod.fst else range :: m.inner.map Prod.fst := by
  unfold Map.insert
  split
  · rw [List.map_map]
    apply List.map_congr_left
    intro e _
    simp only [Function.comp]
    split <;> simp_all
  · rfl

/-- C93: where the order of the addresses is total and transitive, a registration that is accepted
makes two devices share an address exactly if the new range encloses, on both sides, a range of the
map that is not empty. -/
theorem C93_register_sharing (htot : ∀ x y : O, Offset.le x y = true ∨ Offset.le y x = true)
    (htr : ∀ x y z : O, Offset.le x y = true → Offset.le y z = true → Offset.le x z = true)
    (hd : NoSharing m.inner) (h : m.register range dev = .ok m') :
    NoSharing m'.inner ↔ ¬ ∃ e ∈ m.inner, Offset.le range.start e.1.start = true ∧
      Offset.le e.1.start e.1.stop = true ∧ Offset.le e.1.stop range.stop = true := by
  have hno : ∀ e ∈ m.inner, ¬ (e.1.contains range.start = true ∨ e.1.contains range.stop = true) := by
    intro e he hc
    obtain ⟨t, ht⟩ := (C93_register_refused (dev := dev)).2 ⟨e, he, hc⟩
    rw [h] at ht
    cases ht
  have hin : m'.inner = Map.insert m.inner range dev := by
    unfold Map.register at h
    split at h
    · cases h
    · cases h; rfl
  have key : ∀ l : List (Range O × D), NoSharing l ↔
      (l.map Prod.fst).Pairwise fun x y : Range O => ∀ a, ¬ (x.contains a = true ∧ y.contains a = true) := by
    intro l
    unfold NoSharing
    rw [List.pairwise_map]
  -- the new range is not there already unless it is empty
  have hshare : ∀ e ∈ m.inner, (∃ a, range.contains a = true ∧ e.1.contains a = true) ↔
      (Offset.le range.start e.1.start = true ∧ Offset.le e.1.start e.1.stop = true ∧
        Offset.le e.1.stop range.stop = true) := by
    intro e he
    have hne := hno e he
    simp only [Range.contains, Bool.and_eq_true] at hne ⊢
    have hrefl : ∀ x : O, Offset.le x x = true := fun x => (htot x x).elim id id
    constructor
    · rintro ⟨a, ⟨h1, h2⟩, h3, h4⟩
      refine ⟨?_, htr _ _ _ h3 h4, ?_⟩
      · rcases htot range.start e.1.start with h5 | h5
        · exact h5
        · exact absurd (.inl ⟨h5, htr _ _ _ h1 h4⟩) hne
      · rcases htot e.1.stop range.stop with h5 | h5
        · exact h5
        · exact absurd (.inr ⟨htr _ _ _ h3 h2, h5⟩) hne
    · rintro ⟨h1, h2, h3⟩
      exact ⟨e.1.start, ⟨h1, htr _ _ _ h2 h3⟩, hrefl _, h2⟩
  rw [key, hin, noSharing_insert_keys]
  split
  · rename_i hk
    refine ⟨fun _ => ?_, fun _ => (key _).1 hd⟩
    rintro ⟨e, he, h1, h2, h3⟩
    obtain ⟨f, hf, hr⟩ := List.mem_map.1 hk
    refine hno f hf (.inl ?_)
    rw [hr]
    unfold Range.contains
    rw [Bool.and_eq_true]
    exact ⟨(htot _ _).elim id id, htr _ _ _ h1 (htr _ _ _ h2 h3)⟩
  · rw [List.pairwise_cons]
    constructor
    · rintro ⟨h1, -⟩ ⟨e, he, h2⟩
      obtain ⟨a, ha⟩ := (hshare e he).2 h2
      exact h1 e.1 (List.mem_map.2 ⟨e, he, rfl⟩) a ha
    · intro hn
      refine ⟨?_, (key _).1 hd⟩
      intro k hk a ha
      obtain ⟨e, he, rfl⟩ := List.mem_map.1 hk
      exact hn ⟨e, he, (hshare e he).1 ⟨a, ha⟩⟩

end

/-! ## The map of the two CPUs is the one at `u16` and `u8` -/

/-- The map of the CPUs as a general one. -/
def general {D : Type} (m : AddressMap D) : Map Word D := ⟨m.inner.map fun e => (⟨e.1.start, e.1.stop⟩, e.2)⟩

theorem general_writeEntries {D : Type} [Addressable D] (b : Build) (a : Word) (v : Byte)
    (es : List (AddrRange × D)) :
    Map.writeEntries b a v (es.map fun e => ((⟨e.1.start, e.1.stop⟩ : Range Word), e.2)) =
      (AddressMap.writeEntries b a v es).map fun x => (x.1, x.2.map fun e => (⟨e.1.start, e.1.stop⟩, e.2)) := by
  induction es with
  | nil => rfl
  | cons e es ih =>
    obtain ⟨r, d⟩ := e
    simp only [List.map_cons, Map.writeEntries, AddressMap.writeEntries, ih]
    have hc : (⟨r.start, r.stop⟩ : Range Word).contains a = r.contains a := rfl
    rw [hc]
    split
    · show (do let x ← Addressable.write b d a v; _) = _
      cases Addressable.write b d a v <;> rfl
    · cases AddressMap.writeEntries b a v es <;> rfl

/-- C93: the map in the models of the CPUs is the general one with addresses `u16` and values `u8`:
reading, writing and registering agree. -/
theorem C93_instance {D : Type} [Addressable D] (b : Build) (m : AddressMap D) (a : Word) (v : Byte)
    (r : AddrRange) (d : D) :
    (general m).read b a = m.read b a ∧
    (general m).write b a v = (m.write b a v).map (fun x => (x.1, general x.2)) ∧
    (general m).register ⟨r.start, r.stop⟩ d = (m.register r d).map general := by
  refine ⟨?_, ?_, ?_⟩
  · unfold Map.read AddressMap.read general
    rw [List.find?_map]
    have : ((fun e : Range Word × D => e.1.contains a) ∘ fun e : AddrRange × D => (⟨e.1.start, e.1.stop⟩, e.2)) =
        fun e => e.1.contains a := rfl
    rw [this]
    cases m.inner.find? (fun e => e.1.contains a) <;> rfl
  · unfold Map.write AddressMap.write
    have : Map.writeEntries b a v (general m).inner = _ := general_writeEntries b a v m.inner
    rw [this]
    cases AddressMap.writeEntries b a v m.inner <;> rfl
  · unfold Map.register AddressMap.register
    have hany : (general m).inner.any (fun e => Map.conflicts ⟨r.start, r.stop⟩ e.1) =
        m.inner.any (fun e => AddressMap.conflicts r e.1) := by
      unfold general
      rw [List.any_map]
      rfl
    rw [hany]
    split
    · show Except.error _ = Except.error _
      congr 1
      unfold Map.overlapText AddressMap.overlapText general
      rw [List.find?_map]
      have : ((fun e : Range Word × D => Map.conflicts ⟨r.start, r.stop⟩ e.1) ∘
          fun e : AddrRange × D => (⟨e.1.start, e.1.stop⟩, e.2)) = fun e => AddressMap.conflicts r e.1 := rfl
      rw [this]
      cases m.inner.find? (fun e => AddressMap.conflicts r e.1) <;> rfl
    · show Except.ok _ = Except.ok _
      congr 1
      unfold general
      congr 1
      simp only [Map.insert, AddressMap.insert]
      have hinj : ∀ x : AddrRange, (⟨x.start, x.stop⟩ : Range Word) = ⟨r.start, r.stop⟩ ↔ x = r := by
        intro x
        cases x; cases r
        simp
      have hmem : (⟨r.start, r.stop⟩ : Range Word) ∈
          (m.inner.map fun e => ((⟨e.1.start, e.1.stop⟩ : Range Word), e.2)).map Prod.fst ↔
          r ∈ m.inner.map Prod.fst := by
        simp only [List.map_map, List.mem_map, Function.comp]
        constructor
        · rintro ⟨e, he, h⟩; exact ⟨e, he, (hinj _).1 h⟩
        · rintro ⟨e, he, h⟩; exact ⟨e, he, (hinj _).2 h⟩
      by_cases hk : r ∈ m.inner.map Prod.fst
      · rw [if_pos (hmem.2 hk), if_pos hk, List.map_map, List.map_map]
        apply List.map_congr_left
        intro e _
        simp only [Function.comp, hinj]
        split <;> rfl
      · rw [if_neg (fun h => hk (hmem.1 h)), if_neg hk]
        rfl

/-! ## Ring buffers on a bus -/

section
variable {T : Type} [Inhabited T]

/-- The state of a bus of rings after the writes `h`. -/
def RingsAfter (h : List (Nat × T)) (rs : List (Range Nat × Nat)) (es : List (Range Nat × Chip8.Ring T)) : Prop :=
  Each (fun x e => e.1 = x.1 ∧ 0 < x.2 ∧
    Chip8.Ring.History x.2 (h.filter fun w => x.1.start ≤ w.1 ∧ w.1 ≤ x.1.stop) e.2) rs es

theorem inRange_iff (r : Range Nat) (a : Nat) : r.contains a = decide (r.start ≤ a ∧ a ≤ r.stop) := by
  show (decide _ && decide _) = _
  rw [Bool.decide_and]

theorem rings_off {h : List (Nat × T)} {a : Nat} {v : T} {rs : List (Range Nat × Nat)}
    {es : List (Range Nat × Chip8.Ring T)} (hi : RingsAfter h rs es)
    (hn : ∀ e ∈ es, e.1.contains a = false) : RingsAfter (h ++ [(a, v)]) rs es := by
  induction rs generalizing es with
  | nil =>
    cases es with
    | nil => trivial
    | cons => cases hi
  | cons x rs ih =>
    cases es with
    | nil => cases hi
    | cons e es =>
      refine ⟨⟨hi.1.1, hi.1.2.1, ?_⟩, ih hi.2 fun f hf => hn f (by simp [hf])⟩
      have := hn e (by simp)
      rw [hi.1.1, inRange_iff] at this
      rw [List.filter_append, List.filter_cons_of_neg (by simpa using this), List.filter_nil, List.append_nil]
      exact hi.1.2.2

theorem rings_step {b : Build} {h : List (Nat × T)} {rs : List (Range Nat × Nat)}
    {es : List (Range Nat × Chip8.Ring T)} (hd : NoSharing es) (hi : RingsAfter h rs es)
    (q : Request Nat T) :
    ∃ es', ask b (⟨es⟩ : Map Nat (Chip8.Ring T)) q = .ok (ringAnswer rs h q, ⟨es'⟩) ∧
      es'.map Prod.fst = es.map Prod.fst ∧
      RingsAfter (match q with | .read _ => h | .write a v => h ++ [(a, v)]) rs es' := by
  induction rs generalizing es with
  | nil =>
    cases es with
    | cons => cases hi
    | nil => cases q <;> exact ⟨[], rfl, rfl, trivial⟩
  | cons x rs ih =>
    cases es with
    | nil => cases hi
    | cons e es =>
      obtain ⟨rg, d⟩ := e
      obtain ⟨k, c⟩ := x
      obtain ⟨⟨hk, hc0, hh⟩, hi'⟩ := hi
      change rg = k at hk
      change 0 < c at hc0
      subst hk
      have hd' := List.pairwise_cons.1 hd
      by_cases hc : rg.contains q.addr = true
      · have hrest : ∀ f ∈ es, f.1.contains q.addr = false := by
          intro f hf
          cases hfc : f.1.contains q.addr with
          | false => rfl
          | true => exact absurd ⟨hc, hfc⟩ (hd'.1 f hf q.addr)
        have hin : rg.start ≤ q.addr ∧ q.addr ≤ rg.stop := by
          rw [inRange_iff] at hc
          exact of_decide_eq_true hc
        rw [ask_hit hc]
        unfold ringAnswer
        rw [List.find?_cons_of_pos (by simpa using hin)]
        cases q with
        | read a =>
          refine ⟨(rg, d) :: es, ?_, rfl, ⟨rfl, hc0, hh⟩, hi'⟩
          show Except.map _ (do let v ← d.read a; _) = _
          rw [Chip8.Ring.C60_read hc0 hh a]
          rfl
        | write a v =>
          obtain ⟨d', hw, -⟩ := Chip8.Ring.C60_write hc0 hh a v
          refine ⟨(rg, d') :: es, ?_, rfl, ⟨rfl, hc0, ?_⟩, rings_off hi' hrest⟩
          · show Except.map _ (do let (r, d') ← d.write a v; _) = _
            rw [hw]
            rfl
          · show Chip8.Ring.History c (List.filter _ (h ++ [(a, v)])) d'
            rw [List.filter_append, List.filter_cons_of_pos (by simpa [Request.addr] using hin), List.filter_nil]
            exact .write hh hw
      · have hc' : rg.contains q.addr = false := by simpa using hc
        have hnin : ¬ (rg.start ≤ q.addr ∧ q.addr ≤ rg.stop) := by
          rw [inRange_iff] at hc'
          exact of_decide_eq_false hc'
        obtain ⟨es', h1, h2, h3⟩ := ih hd'.2 hi'
        refine ⟨(rg, d) :: es', ?_, by rw [List.map_cons, List.map_cons, h2], ⟨rfl, hc0, ?_⟩, h3⟩
        · rw [ask_miss hc', h1]
          unfold ringAnswer
          rw [List.find?_cons_of_neg (by simpa using hnin)]
          rfl
        · cases q with
          | read a => exact hh
          | write a v =>
            show Chip8.Ring.History c (List.filter _ (h ++ [(a, v)])) d
            rw [List.filter_append, List.filter_cons_of_neg (by simpa [Request.addr] using hnin), List.filter_nil,
              List.append_nil]
            exact hh

theorem rings_all {b : Build} (qs : List (Request Nat T)) {h : List (Nat × T)} {rs : List (Range Nat × Nat)}
    {es : List (Range Nat × Chip8.Ring T)} (hd : NoSharing es) (hi : RingsAfter h rs es) :
    ∃ m', askAll b (⟨es⟩ : Map Nat (Chip8.Ring T)) qs = .ok (ringAnswers rs h qs, m') := by
  induction qs generalizing h es with
  | nil => exact ⟨_, rfl⟩
  | cons q qs ih =>
    obtain ⟨es', h1, h2, h3⟩ := rings_step (b := b) hd hi q
    obtain ⟨m', h4⟩ := ih (noSharing_keys h2 hd) h3
    exact ⟨m', by rw [askAll, h1]; simp only [Res.ok_bind]; rw [h4]; rfl⟩

/-- C93: new ring buffers of positive capacities on a bus with addresses of type `usize`: whatever the
requests, no panic; a write to a mapped address is accepted, a read gives the value last written, in
the same range, to an address that is the same modulo the capacity. -/
theorem C93_rings (b : Build) (rs : List (Range Nat × Nat)) (hpos : ∀ x ∈ rs, 0 < x.2)
    (hd : NoSharing rs) (qs : List (Request Nat T)) :
    ∃ m', askAll b (⟨rs.map fun x => (x.1, Chip8.Ring.new x.2)⟩ : Map Nat (Chip8.Ring T)) qs =
      .ok (ringAnswers rs [] qs, m') := by
  apply rings_all
  · unfold NoSharing at hd ⊢
    rw [List.pairwise_map]
    exact hd
  · clear hd
    induction rs with
    | nil => trivial
    | cons x rs ih =>
      exact ⟨⟨rfl, hpos x (by simp), .new⟩, ih fun y hy => hpos y (by simp [hy])⟩

end

/-- Two rings on a bus. -/
def twoRings : List (Range Nat × Nat) := [(⟨100, 199⟩, 16), (⟨1000, 1003⟩, 3)]

theorem twoRings_meets : (∀ x ∈ twoRings, 0 < x.2) ∧ NoSharing twoRings := by
  refine ⟨by decide, ?_⟩
  simp only [NoSharing, twoRings, List.pairwise_cons, List.mem_singleton, forall_eq, inRange_iff,
    decide_eq_true_eq, List.not_mem_nil, false_implies, implies_true, List.Pairwise.nil, and_true]
  intro a
  omega

/-- The write at 1003 is read at 1000 in the ring of capacity 3, and at 116 the one of 100. -/
example : ringAnswers twoRings [] [.write 100 7, .write 1003 (9 : Nat), .read 116, .read 1000, .read 101, .read 5, .write 5 1] =
    [.write (.ok 7), .write (.ok 9), .read 7, .read 9, .read 0, .read 0,
      .write (.error "address space 5 unallocated")] := by rfl

/-- The hypotheses of `C93_separately` and `C93_order` for these rings. -/
example (b : Build) : ∃ (l : List (Request Nat Nat × Answer Nat)) (m m' : Map Nat (Chip8.Ring Nat)),
    NoSharing m.inner ∧ m.inner.length = 2 ∧ l.length = 4 ∧ Answers b m l m' := by
  obtain ⟨m', h⟩ := C93_rings b twoRings twoRings_meets.1 twoRings_meets.2
    [.write 100 7, .write 1003 (9 : Nat), .read 116, .read 1000]
  refine ⟨[(.write 100 7, .write (.ok 7)), (.write 1003 9, .write (.ok 9)), (.read 116, .read 7),
    (.read 1000, .read 9)], _, m', ?_, rfl, rfl, h⟩
  have := twoRings_meets.2
  unfold NoSharing at this ⊢
  rw [List.pairwise_map]
  exact this

/-- Registrations: one refused, one accepted, one accepted that makes two devices share addresses. -/
example : ((⟨[(⟨10, 19⟩, ())]⟩ : Map Nat Unit).register ⟨15, 30⟩ ()).isOk = false ∧
    ((⟨[(⟨10, 19⟩, ())]⟩ : Map Nat Unit).register ⟨20, 30⟩ ()).isOk = true ∧
    ((⟨[(⟨10, 19⟩, ())]⟩ : Map Nat Unit).register ⟨5, 30⟩ ()).isOk = true ∧
    (∀ x y : Nat, Offset.le x y = true ∨ Offset.le y x = true) ∧
    (∀ x y z : Nat, Offset.le x y = true → Offset.le y z = true → Offset.le x z = true) := by
  refine ⟨by decide, by decide, by decide, ?_, ?_⟩
  · intro x y
    simp only [Offset.le, decide_eq_true_eq]
    omega
  · intro x y z
    simp only [Offset.le, decide_eq_true_eq]
    omega

end Verif.Props
