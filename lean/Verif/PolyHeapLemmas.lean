import Verif.PolyHeap

set_option linter.unusedSectionVars false

/-!
# Lemmas on polynomials with pointers: ownership of the cached derivative
-/

namespace Verif.PolyHeap

theorem lt_of_slot {A : Type} {l : List (Option A)} {i : ℕ} {a : A} (h : (l[i]?).join = some a) : i < l.length := by
  by_contra hn
  rw [List.getElem?_eq_none (by omega)] at h
  cases h

theorem slot_set {A : Type} {l : List (Option A)} {i : ℕ} {b : Option A} (hi : i < l.length) (j : ℕ) :
    ((l.set i b)[j]?).join = if j = i then b else (l[j]?).join := by
  rw [List.getElem?_set]
  by_cases h : i = j
  · subst h; simp [hi]
  · simp [h, Ne.symm h]

theorem slot_append {A : Type} {l : List (Option A)} {b : Option A} (j : ℕ) :
    ((l ++ [b])[j]?).join = if j = l.length then b else (l[j]?).join := by
  rw [List.getElem?_append]
  by_cases h : j = l.length
  · subst h; simp
  · by_cases h2 : j < l.length
    · simp [h2, h]
    · rw [if_neg h2, if_neg h, List.getElem?_eq_none (by omega : l.length ≤ j), List.getElem?_eq_none]
      simp; omega

namespace Mem

theorem obj_put {m : Mem} {p : ℕ} {o o' : Obj} (h : m.obj p = some o') (q : ℕ) :
    (m.put p o).obj q = if q = p then some o else m.obj q :=
  slot_set (lt_of_slot h) q

theorem obj_add {m : Mem} {o : Obj} (q : ℕ) :
    (m.add o).obj q = if q = m.objects.length then some o else m.obj q := slot_append q

end Mem

open Mem

/-- Every cached derivative belongs to one polynomial; polynomials outside `U` have none. -/
structure Inv (m : Mem) (U : ℕ → Prop) : Prop where
  owner : ∀ p o a, m.obj p = some o → o.derivative = some a → m.cell a = some (.member p)
  updated : ∀ p o, m.obj p = some o → o.isUpdated = true → o.derivative ≠ none
  unused : ∀ p o, m.obj p = some o → ¬ U p → o.derivative = none ∧ o.isUpdated = false

/-- Every heap cell belongs to a live polynomial. -/
def NoLeak (m : Mem) : Prop := ∀ a ptr, m.cell a = some ptr → ∃ p o, m.obj p = some o ∧ o.derivative = some a

/-- An up-to-date polynomial on a live vector has cached the derivative of that vector. -/
def Content (m : Mem) : Prop := ∀ p o v, m.obj p = some o → o.isUpdated = true → o.coefficients = some (.user v) →
  v < m.vectors.length ∧ ∀ cs, m.vec v = some cs → o.cache = Poly.derivCoefficients cs

theorem Inv.mono {m : Mem} {U V : ℕ → Prop} (I : Inv m U) (h : ∀ p, U p → V p) : Inv m V :=
  ⟨I.owner, I.updated, fun p o ho hv => I.unused p o ho (fun hu => hv (h p hu))⟩

/-- A new polynomial without a derivative. -/
theorem add_facts {m : Mem} {U : ℕ → Prop} (I : Inv m U) {o : Obj} (h1 : o.derivative = none) (h2 : o.isUpdated = false) :
    Inv (m.add o) U ∧ (NoLeak m → NoLeak (m.add o)) ∧ (Content m → Content (m.add o)) := by
  refine ⟨⟨?_, ?_, ?_⟩, ?_, ?_⟩
  · intro p o' a hp ha
    rw [obj_add] at hp
    split_ifs at hp
    · cases hp; rw [h1] at ha; cases ha
    · exact I.owner p o' a hp ha
  · intro p o' hp hu
    rw [obj_add] at hp
    split_ifs at hp
    · cases hp; rw [h2] at hu; cases hu
    · exact I.updated p o' hp hu
  · intro p o' hp hu
    rw [obj_add] at hp
    split_ifs at hp
    · cases hp; exact ⟨h1, h2⟩
    · exact I.unused p o' hp hu
  · intro N a ptr hc
    obtain ⟨p, o', hp, hd⟩ := N a ptr hc
    refine ⟨p, o', ?_, hd⟩
    rw [obj_add, if_neg, hp]
    exact (lt_of_slot hp).ne
  · intro C p o' v hp hu hcf
    rw [obj_add] at hp
    split_ifs at hp
    · cases hp; rw [h2] at hu; cases hu
    · exact C p o' v hp hu hcf

/-- A replaced polynomial that is out of date and keeps its derivative. -/
theorem put_facts {m : Mem} {U : ℕ → Prop} (I : Inv m U) {p : ℕ} {o o1 : Obj} (hp : m.obj p = some o)
    (h1 : o1.derivative = o.derivative) (h2 : o1.isUpdated = false) :
    Inv (m.put p o1) U ∧ (NoLeak m → NoLeak (m.put p o1)) ∧ (Content m → Content (m.put p o1)) := by
  refine ⟨⟨?_, ?_, ?_⟩, ?_, ?_⟩
  · intro q o' a hq ha
    rw [obj_put hp] at hq
    split_ifs at hq with e
    · cases hq; subst e; exact I.owner q o a hp (h1 ▸ ha)
    · exact I.owner q o' a hq ha
  · intro q o' hq hu
    rw [obj_put hp] at hq
    split_ifs at hq
    · cases hq; rw [h2] at hu; cases hu
    · exact I.updated q o' hq hu
  · intro q o' hq hu
    rw [obj_put hp] at hq
    split_ifs at hq with e
    · cases hq; subst e; exact ⟨h1.trans (I.unused q o hp hu).1, h2⟩
    · exact I.unused q o' hq hu
  · intro N a ptr hc
    obtain ⟨q, o', hq, hd⟩ := N a ptr hc
    by_cases e : q = p
    · subst e
      rw [hp] at hq
      cases hq
      exact ⟨q, o1, by rw [obj_put hp, if_pos rfl], h1.trans hd⟩
    · exact ⟨q, o', by rw [obj_put hp, if_neg e, hq], hd⟩
  · intro C q o' v hq hu hcf
    rw [obj_put hp] at hq
    split_ifs at hq
    · cases hq; rw [h2] at hu; cases hu
    · exact C q o' v hq hu hcf

/-- `delete derivative_` of a live polynomial is defined, and leaves other cells alone. -/
theorem free_facts {m : Mem} {U : ℕ → Prop} (I : Inv m U) {p : ℕ} {o : Obj} (hp : m.obj p = some o) :
    ∃ m1, m.free o.derivative = some m1 ∧ m1.objects = m.objects ∧ m1.vectors = m.vectors ∧
      (∀ a, m1.cell a = if some a = o.derivative then none else m.cell a) := by
  unfold free
  cases hd : o.derivative with
  | none => exact ⟨m, rfl, rfl, rfl, fun a => by simp⟩
  | some a =>
    simp only
    have hc := I.owner p o a hp hd
    rw [hc]
    refine ⟨_, rfl, rfl, rfl, fun b => ?_⟩
    have := slot_set (l := m.heap) (b := none) (lt_of_slot hc) b
    unfold cell
    simp only [Option.some.injEq]
    exact this

/-- What updating the derivative of the live polynomial `o` at `p` does. -/
structure Updated (m m1 : Mem) (p : ℕ) (o : Obj) (b : Bool) : Prop where
  vectors : m1.vectors = m.vectors
  others : ∀ q, q ≠ p → m1.obj q = m.obj q
  self : ∃ o1, m1.obj p = some o1 ∧ o1.coefficients = o.coefficients ∧
    (b = true → m1.slopes p = some o1.cache ∧ ∃ a, o1.derivative = some a ∧ m1.cell a = some (.member p))

theorem update_facts {m : Mem} {U : ℕ → Prop} (I : Inv m U) {p : ℕ} {o : Obj} (hp : m.obj p = some o)
    (hc : m.deref o.coefficients ≠ none) :
    ∃ m1 b, m.update p o = some (m1, b) ∧ Updated m m1 p o b ∧ Inv m1 (fun q => U q ∨ some p = some q) ∧
      (NoLeak m → NoLeak m1) ∧ (Content m → Content m1) := by
  have hmono : ∀ q, U q → (U q ∨ some p = some q) := fun q h => Or.inl h
  have hslopes : ∀ {m' : Mem} {o' : Obj} {a : ℕ}, m'.obj p = some o' → o'.derivative = some a →
      m'.cell a = some (.member p) → m'.slopes p = some o'.cache := by
    intro m' o' a h1 h2 h3
    unfold slopes
    simp only [h1, h2, h3, deref, Option.map_some]
  unfold update
  by_cases hu : o.isUpdated = true
  · rw [if_pos hu]
    refine ⟨m, true, rfl, ⟨rfl, fun _ _ => rfl, o, hp, rfl, fun _ => ?_⟩, I.mono hmono, id, id⟩
    cases hd : o.derivative with
    | none => exact absurd hd (I.updated p o hp hu)
    | some a =>
      have h3 := I.owner p o a hp hd
      exact ⟨hslopes hp hd h3, a, rfl, h3⟩
  · rw [if_neg hu]
    have hu : o.isUpdated = false := by simpa using hu
    unfold updateDerivative
    cases hcs : m.deref o.coefficients with
    | none => exact absurd hcs hc
    | some cs =>
      simp only
      by_cases ha : o.coefficients = some (.member p) ∧ 1 < cs.length
      · rw [if_pos ha]
        have F := put_facts I (o1 := { o with cache := [] }) hp rfl hu
        refine ⟨_, false, rfl, ⟨rfl, fun q hq => by rw [obj_put hp, if_neg hq],
          { o with cache := [] }, by rw [obj_put hp, if_pos rfl], rfl, fun h => by cases h⟩, F.1.mono hmono, F.2.1, F.2.2⟩
      · rw [if_neg ha]
        obtain ⟨m1, hm1, eo, ev, ec⟩ := free_facts I hp
        rw [hm1]
        simp only
        set a := m1.heap.length with hadef
        set o1 : Obj := ⟨o.coefficients, Poly.derivCoefficients cs, some a, true⟩ with ho1
        set m2 : Mem := { m1 with objects := m1.objects.set p (some o1), heap := m1.heap ++ [some (.member p)] } with hm2
        have hobj : ∀ q, m2.obj q = if q = p then some o1 else m.obj q := by
          intro q
          have := slot_set (l := m1.objects) (b := some o1) (by rw [eo]; exact lt_of_slot hp) q
          unfold obj
          rw [eo] at this
          rw [hm2]
          simp only
          rw [eo]
          exact this
        have hcell : ∀ b, m2.cell b = if b = a then some (.member p) else
            if some b = o.derivative then none else m.cell b := by
          intro b
          have := slot_append (l := m1.heap) (b := some (VecPtr.member p)) b
          rw [← ec b]
          exact this
        have hlt : ∀ b ptr, m.cell b = some ptr → b ≠ a := by
          intro b ptr hb
          have h1 := lt_of_slot hb
          have h2 : m1.heap.length = m.heap.length := by
            revert hm1
            unfold free
            cases o.derivative with
            | none => intro h; cases h; rfl
            | some c =>
              simp only
              cases m.cell c with
              | none => intro h; cases h
              | some _ => intro h; cases h; simp
          omega
        have hvec : ∀ v, m2.vec v = m.vec v := by
          intro v
          unfold vec
          rw [hm2]
          simp only
          rw [ev]
        refine ⟨m2, true, rfl, ⟨ev, fun q hq => by rw [hobj, if_neg hq], o1, by rw [hobj, if_pos rfl], rfl, fun _ => ?_⟩,
          ⟨?_, ?_, ?_⟩, ?_, ?_⟩
        · have h3 : m2.cell a = some (.member p) := by rw [hcell, if_pos rfl]
          exact ⟨hslopes (by rw [hobj, if_pos rfl]) rfl h3, a, rfl, h3⟩
        · intro q o' b hq hb
          rw [hobj] at hq
          split_ifs at hq with e
          · cases hq; cases hb; subst e
            rw [hcell, if_pos rfl]
          · have h1 := I.owner q o' b hq hb
            rw [hcell, if_neg (hlt b _ h1), if_neg, h1]
            intro h
            have := I.owner p o b hp h.symm
            rw [h1] at this
            cases this
            exact e rfl
        · intro q o' hq hu'
          rw [hobj] at hq
          split_ifs at hq with e
          · cases hq; simp [ho1]
          · exact I.updated q o' hq hu'
        · intro q o' hq hu'
          rw [hobj] at hq
          split_ifs at hq with e
          · exact absurd (Or.inr (congrArg some e.symm)) hu'
          · exact I.unused q o' hq (fun h => hu' (Or.inl h))
        · intro N b ptr hb
          rw [hcell] at hb
          split_ifs at hb with e1 e2
          · exact ⟨p, o1, by rw [hobj, if_pos rfl], by rw [e1]⟩
          · obtain ⟨q, o', hq, hd⟩ := N b ptr hb
            refine ⟨q, o', ?_, hd⟩
            rw [hobj, if_neg, hq]
            intro e
            subst e
            rw [hp] at hq
            cases hq
            exact e2 hd.symm
        · intro C q o' v hq hu' hcf
          rw [hobj] at hq
          split_ifs at hq with e
          · cases hq
            have hcf : o.coefficients = some (.user v) := hcf
            rw [hcf] at hcs
            have hcs : m.vec v = some cs := hcs
            refine ⟨by show v < m1.vectors.length; rw [ev]; exact lt_of_slot hcs, fun cs' hv => ?_⟩
            rw [hvec, hcs] at hv
            cases hv
            rfl
          · obtain ⟨c1, c2⟩ := C q o' v hq hu' hcf
            refine ⟨by show v < m1.vectors.length; rw [ev]; exact c1, fun cs' hv => ?_⟩
            rw [hvec] at hv
            exact c2 cs' hv

theorem Updated.deref_ne {m m1 : Mem} {p : ℕ} {o : Obj} {b : Bool} (h : Updated m m1 p o b)
    {ptr : Option VecPtr} (hd : m.deref ptr ≠ none) : m1.deref ptr ≠ none := by
  cases ptr with
  | none => exact hd
  | some w =>
    cases w with
    | null => exact hd
    | user v =>
      show m1.vec v ≠ none
      unfold vec
      rw [h.vectors]
      exact hd
    | member q =>
      show (m1.obj q).map Obj.cache ≠ none
      by_cases e : q = p
      · subst e
        obtain ⟨o1, h1, _⟩ := h.self
        rw [h1]
        simp
      · rw [h.others q e]
        exact hd

theorem vec_frame {m m1 : Mem} (ho : m1.objects = m.objects) (hh : m1.heap = m.heap) {U : ℕ → Prop} (I : Inv m U) :
    Inv m1 U ∧ (NoLeak m → NoLeak m1) := by
  have h1 : m1.obj = m.obj := by funext p; unfold obj; rw [ho]
  have h2 : m1.cell = m.cell := by funext p; unfold cell; rw [hh]
  refine ⟨⟨?_, ?_, ?_⟩, ?_⟩
  · rw [h1, h2]; exact I.owner
  · rw [h1]; exact I.updated
  · rw [h1]; exact I.unused
  · unfold NoLeak; rw [h1, h2]; exact id

/-- Every legal call that copies no used polynomial is defined and keeps the invariants. -/
theorem step {m : Mem} {U : ℕ → Prop} (I : Inv m U) (op : Op) (live : op.Live m)
    (hc : ∀ p, op.copies = some p → ¬ U p) :
    ∃ m1 a, op.run m = some (m1, a) ∧ Inv m1 (fun q => U q ∨ op.uses = some q) ∧
      ((∀ q p, op = .assign q p → ¬ U q) → NoLeak m → NoLeak m1) ∧
      ((∀ v cs, op ≠ .editVector v cs) → Content m → Content m1) := by
  have hn : ∀ {V : Option ℕ}, ∀ q, U q → (U q ∨ V = some q) := fun q h => Or.inl h
  cases op with
  | newVector cs =>
    obtain ⟨F1, F2⟩ := vec_frame (m := m) (m1 := { m with vectors := m.vectors ++ [some cs] }) rfl rfl I
    refine ⟨_, _, rfl, F1.mono hn, fun _ => F2, fun _ C p o v hp hu hcf => ?_⟩
    obtain ⟨c1, c2⟩ := C p o v hp hu hcf
    refine ⟨by show v < (m.vectors ++ [some cs]).length; simp; omega, fun cs' hv => c2 cs' ?_⟩
    have := slot_append (l := m.vectors) (b := some cs) v
    have hv : ((m.vectors ++ [some cs])[v]?).join = some cs' := hv
    rw [this] at hv
    rwa [if_neg c1.ne] at hv
  | editVector v cs =>
    cases hv : m.vec v with
    | none => exact absurd hv live
    | some old =>
      obtain ⟨F1, F2⟩ := vec_frame (m := m) (m1 := { m with vectors := m.vectors.set v (some cs) }) rfl rfl I
      exact ⟨_, _, by simp only [Op.run, hv]; rfl, F1.mono hn, fun _ => F2, fun h => absurd rfl (h v cs)⟩
  | freeVector v =>
    cases hv : m.vec v with
    | none => exact absurd hv live
    | some old =>
      obtain ⟨F1, F2⟩ := vec_frame (m := m) (m1 := { m with vectors := m.vectors.set v none }) rfl rfl I
      refine ⟨_, _, by simp only [Op.run, hv]; rfl, F1.mono hn, fun _ => F2, fun _ C p o w hp hu hcf => ?_⟩
      obtain ⟨c1, c2⟩ := C p o w hp hu hcf
      refine ⟨by show w < (m.vectors.set v none).length; simpa using c1, fun cs' hw => c2 cs' ?_⟩
      have := slot_set (l := m.vectors) (b := none) (lt_of_slot hv) w
      have hw : ((m.vectors.set v none)[w]?).join = some cs' := hw
      rw [this] at hw
      split_ifs at hw
      exact hw
  | construct =>
    obtain ⟨F1, F2, F3⟩ := add_facts I (o := ⟨none, [], none, false⟩) rfl rfl
    exact ⟨_, _, rfl, F1.mono hn, fun _ => F2, fun _ => F3⟩
  | constructWith ptr =>
    obtain ⟨F1, F2, F3⟩ := add_facts I (o := ⟨some ptr, [], none, false⟩) rfl rfl
    exact ⟨_, _, rfl, F1.mono hn, fun _ => F2, fun _ => F3⟩
  | copy p =>
    cases hp : m.obj p with
    | none => exact absurd hp live
    | some o =>
      obtain ⟨u1, u2⟩ := I.unused p o hp (hc p rfl)
      obtain ⟨F1, F2, F3⟩ := add_facts I u1 u2
      exact ⟨_, _, by simp only [Op.run, hp]; rfl, F1.mono hn, fun _ => F2, fun _ => F3⟩
  | assign q p =>
    cases hp : m.obj p with
    | none => exact absurd hp live.2
    | some o =>
      cases hq : m.obj q with
      | none => exact absurd hq live.1
      | some o' =>
        obtain ⟨u1, u2⟩ := I.unused p o hp (hc p rfl)
        refine ⟨_, _, by simp only [Op.run, hp, hq]; rfl, Inv.mono (U := U) ⟨?_, ?_, ?_⟩ hn, ?_, ?_⟩
        · intro r x a hr ha
          rw [obj_put hq] at hr
          split_ifs at hr
          · cases hr; rw [u1] at ha; cases ha
          · exact I.owner r x a hr ha
        · intro r x hr hu
          rw [obj_put hq] at hr
          split_ifs at hr
          · cases hr; rw [u2] at hu; cases hu
          · exact I.updated r x hr hu
        · intro r x hr hu
          rw [obj_put hq] at hr
          split_ifs at hr
          · cases hr; exact ⟨u1, u2⟩
          · exact I.unused r x hr hu
        · intro h
          exact (put_facts I hq (u1.trans (I.unused q o' hq (h q p rfl)).1.symm) u2).2.1
        · intro _ C r x v hr hu hcf
          rw [obj_put hq] at hr
          split_ifs at hr
          · cases hr; rw [u2] at hu; cases hu
          · exact C r x v hr hu hcf
  | destroy p =>
    cases hp : m.obj p with
    | none => exact absurd hp live
    | some o =>
      obtain ⟨m1, hm1, eo, ev, ec⟩ := free_facts I hp
      set m2 : Mem := { m1 with objects := m1.objects.set p none } with hm2
      have hobj : ∀ q, m2.obj q = if q = p then none else m.obj q := by
        intro q
        have := slot_set (l := m.objects) (b := none) (lt_of_slot hp) q
        unfold obj
        rw [hm2]
        simp only
        rw [eo]
        exact this
      have hcell : ∀ b, m2.cell b = if some b = o.derivative then none else m.cell b := ec
      refine ⟨m2, _, by simp only [Op.run, hp, hm1]; rfl, Inv.mono (U := U) ⟨?_, ?_, ?_⟩ hn, ?_, ?_⟩
      · intro q x b hq hb
        rw [hobj] at hq
        split_ifs at hq with e
        have h1 := I.owner q x b hq hb
        rw [hcell, if_neg, h1]
        intro h
        have := I.owner p o b hp h.symm
        rw [h1] at this
        cases this
        exact e rfl
      · intro q x hq hu
        rw [hobj] at hq
        split_ifs at hq
        exact I.updated q x hq hu
      · intro q x hq hu
        rw [hobj] at hq
        split_ifs at hq
        exact I.unused q x hq hu
      · intro _ N b ptr hb
        rw [hcell] at hb
        split_ifs at hb with e
        obtain ⟨q, x, hq, hd⟩ := N b ptr hb
        refine ⟨q, x, ?_, hd⟩
        rw [hobj, if_neg, hq]
        intro e2
        subst e2
        rw [hp] at hq
        cases hq
        exact e hd.symm
      · intro _ C q x v hq hu hcf
        rw [hobj] at hq
        split_ifs at hq
        obtain ⟨c1, c2⟩ := C q x v hq hu hcf
        refine ⟨by show v < m1.vectors.length; rw [ev]; exact c1, fun cs hv => c2 cs ?_⟩
        have : m2.vec v = m.vec v := by
          unfold vec; rw [hm2]; simp only; rw [ev]
        rw [← this, hv]
  | setCoefficients p ptr =>
    cases hp : m.obj p with
    | none => exact absurd hp live
    | some o =>
      obtain ⟨F1, F2, F3⟩ := put_facts I (o1 := { o with coefficients := some ptr, isUpdated := false }) hp rfl rfl
      exact ⟨_, _, by simp only [Op.run, hp]; rfl, F1.mono hn, fun _ => F2, fun _ => F3⟩
  | y p x =>
    obtain ⟨o, hp, hd⟩ := live
    cases hcs : m.deref o.coefficients with
    | none => exact absurd hcs hd
    | some cs =>
      exact ⟨m, _, by simp only [Op.run, hp, hcs]; rfl, I.mono hn, fun _ => id, fun _ => id⟩
  | slope p x =>
    obtain ⟨o, hp, hd⟩ := live
    obtain ⟨m1, b, hu, H, I1, N, C⟩ := update_facts I hp hd
    cases b with
    | false => exact ⟨m1, _, by simp only [Op.run, hp, hu]; rfl, I1, fun _ => N, fun _ => C⟩
    | true =>
      obtain ⟨o1, _, _, h⟩ := H.self
      exact ⟨m1, _, by simp only [Op.run, hp, hu, (h rfl).1]; rfl, I1, fun _ => N, fun _ => C⟩
  | solveX p t d g =>
    obtain ⟨o, hp, hd⟩ := live
    obtain ⟨m1, b, hu, H, I1, N, C⟩ := update_facts I hp hd
    cases b with
    | false => exact ⟨m1, _, by simp only [Op.run, hp, hu]; rfl, I1, fun _ => N, fun _ => C⟩
    | true =>
      obtain ⟨o1, _, _, h⟩ := H.self
      have hne := H.deref_ne hd
      cases hcs : m1.deref o.coefficients with
      | none => exact absurd hcs hne
      | some l =>
        cases l with
        | nil => exact ⟨m1, _, by simp only [Op.run, hp, hu, hcs]; rfl, I1, fun _ => N, fun _ => C⟩
        | cons c cs =>
          by_cases hb : 1 / (10 : ℝ) ^ d < 999999
          · exact ⟨m1, _, by simp only [Op.run, hp, hu, hcs, (h rfl).1, if_pos hb]; rfl, I1, fun _ => N, fun _ => C⟩
          · exact ⟨m1, _, by simp only [Op.run, hp, hu, hcs, (h rfl).1, if_neg hb]; rfl, I1, fun _ => N, fun _ => C⟩
  | validate p =>
    obtain ⟨o, hp, hd⟩ := live
    by_cases hnull : o.coefficients = some .null
    · exact ⟨m, _, by simp only [Op.run, hp, hnull]; rfl, I.mono hn, fun _ => id, fun _ => id⟩
    · have hd : m.deref o.coefficients ≠ none := hd.resolve_left hnull
      obtain ⟨m1, b, hu, H, I1, N, C⟩ := update_facts I hp hd
      cases hco : o.coefficients with
      | none => rw [hco] at hd; exact absurd rfl hd
      | some w =>
        cases w with
        | null => exact absurd hco hnull
        | user v =>
          cases b with
          | false => exact ⟨m1, _, by simp only [Op.run, hp, hco, hu]; rfl, I1, fun _ => N, fun _ => C⟩
          | true => exact ⟨m1, _, by simp only [Op.run, hp, hco, hu]; rfl, I1, fun _ => N, fun _ => C⟩
        | member v =>
          cases b with
          | false => exact ⟨m1, _, by simp only [Op.run, hp, hco, hu]; rfl, I1, fun _ => N, fun _ => C⟩
          | true => exact ⟨m1, _, by simp only [Op.run, hp, hco, hu]; rfl, I1, fun _ => N, fun _ => C⟩
  | derivative p =>
    obtain ⟨o, hp, hd⟩ := live
    obtain ⟨m1, b, hu, H, I1, N, C⟩ := update_facts I hp hd
    cases b with
    | false => exact ⟨m1, _, by simp only [Op.run, hp, hu]; rfl, I1, fun _ => N, fun _ => C⟩
    | true =>
      obtain ⟨o1, h1, _, h⟩ := H.self
      obtain ⟨_, a, h2, h3⟩ := h rfl
      obtain ⟨F1, F2, F3⟩ := add_facts I1 (o := ⟨some (.member p), [], none, false⟩) rfl rfl
      exact ⟨_, _, by simp only [Op.run, hp, hu, h1, h2, h3]; rfl, F1, fun _ => F2 ∘ N, fun _ => F3 ∘ C⟩

end Verif.PolyHeap
