import Verif.ElongationHeap

set_option linter.unusedSectionVars false

/-!
# Lemmas on the memory of elongation models
-/

namespace Verif.PolyHeap

open Mem

/-- What decides whether calls are made on live objects: the vectors, the number of polynomials, and which coefficients
the live ones have. -/
structure Shape where
  vectors : List (Option (List ℝ))
  size : ℕ
  slot : ℕ → Option (Option VecPtr)

/-- The shape of a memory. -/
def shape (m : Mem) : Shape := ⟨m.vectors, m.objects.length, fun q => (m.obj q).map Obj.coefficients⟩

/-- The shape with the slot `p` replaced. -/
def Shape.put (s : Shape) (p : ℕ) (x : Option (Option VecPtr)) : Shape :=
  { s with slot := fun q => if q = p then x else s.slot q }

/-- The shape after a call, for the calls that are made by models. -/
def Shape.next (s : Shape) : Op → Shape
  | .construct => { s.put s.size (some none) with size := s.size + 1 }
  | .copy p => { s.put s.size (s.slot p) with size := s.size + 1 }
  | .assign q p => s.put q (s.slot p)
  | .destroy p => s.put p none
  | .setCoefficients p ptr => s.put p (some (some ptr))
  | _ => s

/-- The call is made on live objects, for the calls that are made by models. -/
def Shape.Ok (s : Shape) : Op → Prop
  | .construct => True
  | .copy p | .destroy p | .setCoefficients p _ => s.slot p ≠ none
  | .assign q p => s.slot q ≠ none ∧ s.slot p ≠ none
  | .y p _ | .slope p _ | .solveX p _ _ _ => ∃ v, s.slot p = some (some (.user v)) ∧ (s.vectors[v]?).join ≠ none
  | _ => False

/-- The calls of a list are made on live objects. -/
def Shape.Oks (s : Shape) : List Op → Prop
  | [] => True
  | op :: ops => s.Ok op ∧ (s.next op).Oks ops

/-- The shape after a list of calls. -/
def Shape.after (s : Shape) : List Op → Shape
  | [] => s
  | op :: ops => (s.next op).after ops

theorem Shape.Oks_append (s : Shape) (a b : List Op) : s.Oks (a ++ b) ↔ s.Oks a ∧ (s.after a).Oks b := by
  induction a generalizing s with
  | nil => simp [Oks, after]
  | cons x a ih => simp only [List.cons_append, Oks, after, ih, and_assoc]

theorem Shape.after_append (s : Shape) (a b : List Op) : s.after (a ++ b) = (s.after a).after b := by
  induction a generalizing s with
  | nil => rfl
  | cons x a ih => exact ih _

theorem slot_some {m : Mem} {p : ℕ} (h : (shape m).slot p ≠ none) : m.obj p ≠ none := by
  intro h2
  apply h
  show (m.obj p).map _ = none
  rw [h2]; rfl

theorem free_objects {m m1 : Mem} {d : Option ℕ} (h : m.free d = some m1) : m1.objects = m.objects ∧ m1.vectors = m.vectors := by
  unfold free at h
  split at h
  · cases h; exact ⟨rfl, rfl⟩
  · split at h
    · cases h
    · cases h; exact ⟨rfl, rfl⟩

theorem shape_put {m : Mem} {p : ℕ} {o o' : Obj} (h : m.obj p = some o') :
    shape (m.put p o) = (shape m).put p (some o.coefficients) := by
  unfold shape Shape.put
  congr 1
  · show (m.objects.set p (some o)).length = _
    simp
  · funext q
    rw [obj_put h]
    split_ifs <;> rfl

theorem shape_add {m : Mem} {o : Obj} :
    shape (m.add o) = { (shape m).put m.objects.length (some o.coefficients) with size := m.objects.length + 1 } := by
  unfold shape Shape.put
  congr 1
  · show (m.objects ++ [some o]).length = _
    simp
  · funext q
    simp only
    rw [obj_add]
    split_ifs <;> rfl

theorem Shape.put_self {s : Shape} {p : ℕ} {x : Option (Option VecPtr)} (h : s.slot p = x) : s.put p x = s := by
  unfold put
  congr 1
  funext q
  split_ifs with e
  · rw [e, h]
  · rfl

theorem update_shape {m m1 : Mem} {p : ℕ} {o : Obj} {b : Bool} (hp : m.obj p = some o) (h : m.update p o = some (m1, b)) :
    shape m1 = shape m := by
  unfold Mem.update at h
  split_ifs at h with hu
  · cases h; rfl
  · unfold updateDerivative at h
    split at h
    · cases h
    · rename_i cs hcs
      split_ifs at h with hm
      · cases h
        rw [shape_put hp]
        exact Shape.put_self (by show (m.obj p).map _ = _; rw [hp]; rfl)
      · split at h
        · cases h
        · rename_i m2 hf
          cases h
          obtain ⟨e1, e2⟩ := free_objects hf
          have e3 : m2.obj p = some o := by unfold obj; rw [e1]; exact hp
          have e4 : shape m2 = shape m := by
            unfold shape
            rw [e1, e2]
            congr 1
            funext q
            unfold obj
            rw [e1]
          rw [← e4]
          have := shape_put (m := m2) (o := ⟨o.coefficients, Poly.derivCoefficients cs, some m2.heap.length, true⟩) e3
          refine Eq.trans ?_ (this.trans (Shape.put_self (by show (m2.obj p).map _ = _; rw [e3]; rfl)))
          rfl

/-- A call on live objects that copies no used polynomial. -/
theorem next_step {m : Mem} {U : ℕ → Prop} (I : Inv m U) (op : Op) (hok : (shape m).Ok op)
    (hc : ∀ p, op.copies = some p → ¬ U p) :
    ∃ m1 a, op.run m = some (m1, a) ∧ Inv m1 (fun q => U q ∨ op.uses = some q) ∧ shape m1 = (shape m).next op ∧
      ((∀ q p, op = .assign q p → ¬ U q) → NoLeak m → NoLeak m1) := by
  have asked : ∀ p, (∃ v, (shape m).slot p = some (some (.user v)) ∧ ((shape m).vectors[v]?).join ≠ none) →
      ∃ o, m.obj p = some o ∧ m.deref o.coefficients ≠ none := by
    rintro p ⟨v, h1, h2⟩
    have h1 : (m.obj p).map Obj.coefficients = some (some (.user v)) := h1
    cases hp : m.obj p with
    | none => rw [hp] at h1; cases h1
    | some o =>
      rw [hp] at h1
      refine ⟨o, rfl, ?_⟩
      have : o.coefficients = some (.user v) := by simpa using h1
      rw [this]
      exact h2
  have live : op.Live m := by
    cases op with
    | construct => trivial
    | copy p => exact slot_some hok
    | destroy p => exact slot_some hok
    | setCoefficients p ptr => exact slot_some hok
    | assign q p => exact ⟨slot_some hok.1, slot_some hok.2⟩
    | y p x => exact asked p hok
    | slope p x => exact asked p hok
    | solveX p t d g => exact asked p hok
    | _ => exact hok.elim
  obtain ⟨m1, a, h1, h2, h3, _⟩ := step I op live hc
  refine ⟨m1, a, h1, h2, ?_, h3⟩
  cases op with
  | construct => cases h1; exact shape_add
  | copy p =>
    simp only [Op.run] at h1
    split at h1
    · cases h1
    · rename_i o ho
      cases h1
      rw [shape_add]
      show _ = { (shape m).put (shape m).size ((shape m).slot p) with size := (shape m).size + 1 }
      have : (shape m).slot p = some o.coefficients := by show (m.obj p).map _ = _; rw [ho]; rfl
      rw [this]
      rfl
  | destroy p =>
    simp only [Op.run] at h1
    split at h1
    · cases h1
    · rename_i o ho
      split at h1
      · cases h1
      · rename_i m2 hf
        cases h1
        obtain ⟨e1, e2⟩ := free_objects hf
        unfold shape Shape.next Shape.put
        simp only
        congr 1
        · rw [e1]; simp
        · funext q
          have := slot_set (l := m2.objects) (b := none) (by rw [e1]; exact lt_of_slot ho) q
          unfold obj
          simp only
          rw [this, e1]
          split_ifs <;> rfl
  | setCoefficients p ptr =>
    simp only [Op.run] at h1
    split at h1
    · cases h1
    · rename_i o ho
      cases h1
      exact shape_put ho
  | assign q p =>
    simp only [Op.run] at h1
    split at h1
    · rename_i o o' ho ho'
      cases h1
      rw [shape_put ho']
      show _ = (shape m).put q ((shape m).slot p)
      have : (shape m).slot p = some o.coefficients := by show (m.obj p).map _ = _; rw [ho]; rfl
      rw [this]
    · cases h1
  | y p x =>
    simp only [Op.run] at h1
    split at h1
    · cases h1
    · split at h1
      · cases h1
      · cases h1; rfl
  | slope p x =>
    simp only [Op.run] at h1
    split at h1
    · cases h1
    · rename_i o ho
      split at h1
      · cases h1
      · rename_i m2 hm; cases h1; exact update_shape ho hm
      · rename_i m2 hm
        split at h1
        · cases h1
        · cases h1; exact update_shape ho hm
  | solveX p t d g =>
    simp only [Op.run] at h1
    split at h1
    · cases h1
    · rename_i o ho
      split at h1
      · cases h1
      · rename_i m2 hm; cases h1; exact update_shape ho hm
      · rename_i m2 hm
        split at h1
        · cases h1
        · cases h1; exact update_shape ho hm
        · split_ifs at h1
          · split at h1
            · cases h1
            · cases h1; exact update_shape ho hm
          · cases h1; exact update_shape ho hm
  | _ => exact hok.elim

/-- A list of such calls. -/
theorem next_steps {m : Mem} {U : ℕ → Prop} (I : Inv m U) (ops : List Op) (hok : (shape m).Oks ops)
    (hc : ∀ op ∈ ops, ∀ p, op.copies = some p → ¬ U p ∧ ∀ op' ∈ ops, op'.uses ≠ some p) :
    ∃ m1, exec m ops = some m1 ∧ Inv m1 (fun q => U q ∨ ∃ op ∈ ops, op.uses = some q) ∧
      shape m1 = (shape m).after ops ∧
      ((∀ q p, Op.assign q p ∈ ops → ¬ U q ∧ ∀ op' ∈ ops, op'.uses ≠ some q) → NoLeak m → NoLeak m1) := by
  induction ops generalizing m U with
  | nil => exact ⟨m, rfl, I.mono fun q h => Or.inl h, rfl, fun _ => id⟩
  | cons op ops ih =>
    obtain ⟨ok1, ok2⟩ := hok
    obtain ⟨m1, a, h1, h2, h3, h4⟩ := next_step I op ok1 fun p hp => (hc op (List.mem_cons_self ..) p hp).1
    obtain ⟨m2, g1, g2, g3, g4⟩ := ih h2 (by rw [h3]; exact ok2) (by
      intro op' ho p hp
      obtain ⟨k1, k2⟩ := hc op' (List.mem_cons_of_mem _ ho) p hp
      refine ⟨?_, fun x hx => k2 x (List.mem_cons_of_mem _ hx)⟩
      rintro (h | h)
      · exact k1 h
      · exact k2 op (List.mem_cons_self ..) h)
    refine ⟨m2, ?_, g2.mono ?_, ?_, ?_⟩
    · show (match op.run m with | none => none | some (m1, _) => exec m1 ops) = _
      rw [h1]; exact g1
    · rintro q ((h | h) | ⟨x, h, hx⟩)
      · exact Or.inl h
      · exact Or.inr ⟨op, List.mem_cons_self .., h⟩
      · exact Or.inr ⟨x, List.mem_cons_of_mem _ h, hx⟩
    · rw [g3, h3]; rfl
    · intro ha N
      refine g4 (fun q p hm => ?_) (h4 (fun q p e => (ha q p (by rw [e]; exact List.mem_cons_self ..)).1) N)
      obtain ⟨k1, k2⟩ := ha q p (List.mem_cons_of_mem _ hm)
      refine ⟨?_, fun x hx => k2 x (List.mem_cons_of_mem _ hx)⟩
      rintro (h | h)
      · exact k1 h
      · exact k2 op (List.mem_cons_self ..) h

end Verif.PolyHeap

namespace Verif.ElongationHeap

open PolyHeap PolyHeap.Mem

/-- Overwriting a polynomial by a new one. -/
theorem reset_facts {m : Mem} {U : ℕ → Prop} (I : Inv m U) {p : ℕ} {o : PolyHeap.Obj} (hp : m.obj p = some o) :
    Inv (m.put p ⟨none, [], none, false⟩) U ∧ (¬ U p → NoLeak m → NoLeak (m.put p ⟨none, [], none, false⟩)) := by
  refine ⟨⟨?_, ?_, ?_⟩, ?_⟩
  · intro q x a hq ha
    rw [obj_put hp] at hq
    split_ifs at hq
    · cases hq; cases ha
    · exact I.owner q x a hq ha
  · intro q x hq hu
    rw [obj_put hp] at hq
    split_ifs at hq
    · cases hq; cases hu
    · exact I.updated q x hq hu
  · intro q x hq hu
    rw [obj_put hp] at hq
    split_ifs at hq
    · cases hq; exact ⟨rfl, rfl⟩
    · exact I.unused q x hq hu
  · intro hu
    exact (put_facts I hp (o1 := ⟨none, [], none, false⟩) (I.unused p o hp hu).1.symm rfl).2.1

/-- Setting a component. -/
theorem setPart_facts {m : Mem} {U : ℕ → Prop} (I : Inv m U) {p : ℕ} (hp : (shape m).slot p ≠ none)
    (hp1 : (shape m).slot (p + 1) ≠ none) {part : Option Coefficients} (hv : ∀ c, part = some c → c.Alive m)
    (limit strain : ℝ) :
    ∃ m1, setPart m p limit strain part = some m1 ∧
      Inv m1 (fun q => U q ∨ (part.isSome = true ∧ (q = p ∨ q = p + 1))) ∧
      (shape m1).vectors = (shape m).vectors ∧ (shape m1).size = (shape m).size ∧
      (∀ q, q ≠ p → q ≠ p + 1 → (shape m1).slot q = (shape m).slot q) ∧ (shape m1).slot p ≠ none ∧
      (shape m1).slot (p + 1) ≠ none ∧
      ((part = none → ¬ U p ∧ ¬ U (p + 1)) → NoLeak m → NoLeak m1) := by
  cases part with
  | none =>
    cases h0 : m.obj p with
    | none => exact absurd h0 (slot_some hp)
    | some o =>
      cases h1 : m.obj (p + 1) with
      | none => exact absurd h1 (slot_some hp1)
      | some o1 =>
        obtain ⟨a1, a2⟩ := reset_facts I h0
        have h2 : (m.put p ⟨none, [], none, false⟩).obj (p + 1) = some o1 := by
          rw [obj_put h0, if_neg (by omega)]; exact h1
        obtain ⟨b1, b2⟩ := reset_facts a1 h2
        have e : shape ((m.put p ⟨none, [], none, false⟩).put (p + 1) ⟨none, [], none, false⟩) =
            ((shape m).put p (some none)).put (p + 1) (some none) := by
          rw [shape_put h2, shape_put h0]
        refine ⟨_, by simp only [setPart, h0, h1], b1.mono fun q h => Or.inl h, by rw [e]; rfl, by rw [e]; rfl, ?_, ?_, ?_,
          fun h N => b2 (h rfl).2 (a2 (h rfl).1 N)⟩
        · intro q n1 n2
          rw [e]
          simp only [Shape.put]
          rw [if_neg n2, if_neg n1]
        · rw [e]
          simp [Shape.put]
        · rw [e]
          simp [Shape.put]
  | some c =>
    obtain ⟨v1, v2⟩ := hv c rfl
    set s1 := ((shape m).put p (some (some (.user c.creep)))).put (p + 1) (some (some (.user c.loadStrain))) with hs1
    have q1 : s1.slot p = some (some (.user c.creep)) := by
      show (if p = p + 1 then _ else if p = p then _ else _) = _
      rw [if_neg (by omega), if_pos rfl]
    have q2 : s1.slot (p + 1) = some (some (.user c.loadStrain)) := by
      show (if p + 1 = p + 1 then _ else _) = _
      rw [if_pos rfl]
    have M : ∀ r v, (s1.slot r = some (some (.user v))) → m.vec v ≠ none →
        s1.Oks (modulus m r v limit strain) ∧ s1.after (modulus m r v limit strain) = s1 ∧
        ∀ op ∈ modulus m r v limit strain, op.copies = none ∧ (op.uses = none ∨ op.uses = some r) ∧
          ∀ q q', op ≠ .assign q q' := by
      intro r v h1 h2
      unfold modulus
      split_ifs
      · exact ⟨trivial, rfl, by simp⟩
      · refine ⟨⟨⟨v, h1, h2⟩, ⟨v, h1, h2⟩, trivial⟩, rfl, ?_⟩
        simp [Op.copies, Op.uses]
    obtain ⟨M1, M2, M3⟩ := M p c.creep q1 v1
    obtain ⟨N1, N2, N3⟩ := M (p + 1) c.loadStrain q2 v2
    have hok : (shape m).Oks ([.setCoefficients p (.user c.creep), .setCoefficients (p + 1) (.user c.loadStrain)] ++
        modulus m p c.creep limit strain ++ modulus m (p + 1) c.loadStrain limit strain) := by
      rw [Shape.Oks_append, Shape.Oks_append, Shape.after_append]
      refine ⟨⟨⟨hp, ?_, trivial⟩, M1⟩, ?_⟩
      · show (if p + 1 = p then _ else _) ≠ _
        rw [if_neg (by omega)]; exact hp1
      · show (s1.after _).Oks _
        rw [M2]; exact N1
    have hafter : (shape m).after ([.setCoefficients p (.user c.creep), .setCoefficients (p + 1) (.user c.loadStrain)] ++
        modulus m p c.creep limit strain ++ modulus m (p + 1) c.loadStrain limit strain) = s1 := by
      rw [Shape.after_append, Shape.after_append]
      show (s1.after _).after _ = _
      rw [M2, N2]
    have hmem : ∀ op ∈ ([.setCoefficients p (.user c.creep), .setCoefficients (p + 1) (.user c.loadStrain)] ++
        modulus m p c.creep limit strain ++ modulus m (p + 1) c.loadStrain limit strain), op.copies = none ∧
        (op.uses = none ∨ op.uses = some p ∨ op.uses = some (p + 1)) ∧ ∀ q q', op ≠ .assign q q' := by
      intro op hop
      simp only [List.mem_append, List.mem_cons, List.not_mem_nil, or_false] at hop
      rcases hop with ((h | h) | h) | h
      · subst h; simp [Op.copies, Op.uses]
      · subst h; simp [Op.copies, Op.uses]
      · obtain ⟨k1, k2, k3⟩ := M3 op h
        exact ⟨k1, by rcases k2 with k | k <;> simp [k], k3⟩
      · obtain ⟨k1, k2, k3⟩ := N3 op h
        exact ⟨k1, by rcases k2 with k | k <;> simp [k], k3⟩
    obtain ⟨m1, g1, g2, g3, g4⟩ := next_steps I _ hok (fun op ho p' hp' => by rw [(hmem op ho).1] at hp'; cases hp')
    rw [hafter] at g3
    refine ⟨m1, g1, g2.mono ?_, by rw [g3]; rfl, by rw [g3]; rfl, ?_, by rw [g3, q1]; simp, by rw [g3, q2]; simp,
      fun _ N => g4 (fun q q' h => absurd rfl ((hmem _ h).2.2 q q')) N⟩
    · rintro q (h | ⟨op, h, hq⟩)
      · exact Or.inl h
      · obtain ⟨_, k, _⟩ := hmem op h
        rw [hq] at k
        simp only [Option.some.injEq, reduceCtorEq, false_or] at k
        exact Or.inr ⟨rfl, k⟩
    · intro q n1 n2
      rw [g3]
      show (if q = p + 1 then _ else if q = p then _ else _) = _
      rw [if_neg n2, if_neg n1]

/-- What holds of the memory of a program on models: derivatives have one owner, and the four polynomials of a model are
all alive or all gone. -/
structure Sound (m : Mem) (past : List Call) (U : ℕ → Prop) : Prop where
  inv : Inv m U
  bound : ∀ p, U p → p < m.objects.length
  used : ∀ p, U p → ∃ c ∈ past, c.uses = some (p / 4)
  size : ∃ n, m.objects.length = 4 * n
  whole : ∀ j k, k < 4 → ((shape m).slot (4 * j + k) = none ↔ (shape m).slot (4 * j) = none)

theorem slot_alive {m : Mem} {j : ℕ} : Alive m j ↔ (shape m).slot (4 * j) ≠ none := by
  unfold Alive shape
  simp

theorem slot_large {m : Mem} {p : ℕ} (h : m.objects.length ≤ p) : (shape m).slot p = none := by
  show (m.obj p).map _ = none
  unfold obj
  rw [List.getElem?_eq_none h]
  rfl


/-- Four slots of a model changed. -/
theorem whole_of {s t : Shape} {j : ℕ} {b : Bool}
    (h : ∀ j' k, k < 4 → (t.slot (4 * j' + k) = none ↔ (if j' = j then b = true else s.slot (4 * j' + k) = none)))
    (hw : ∀ j k, k < 4 → (s.slot (4 * j + k) = none ↔ s.slot (4 * j) = none)) :
    ∀ j k, k < 4 → (t.slot (4 * j + k) = none ↔ t.slot (4 * j) = none) := by
  intro j' k hk
  have h0 := h j' 0 (by omega)
  rw [Nat.add_zero] at h0
  rw [h j' k hk, h0]
  split_ifs
  · rfl
  · exact hw j' k hk

/-- A legal call that copies no used model is defined. -/
theorem call_step {m : Mem} {past : List Call} {U : ℕ → Prop} (S : Sound m past U) (c : Call) (live : c.Live m)
    (hc : ∀ j, c.copies = some j → ∀ o ∈ past, o.uses ≠ some j) :
    ∃ m1 V, c.run m = some m1 ∧ Sound m1 (c :: past) V ∧
      ((∀ j, c.overwrites = some j → ∀ o ∈ past, o.uses ≠ some j) → NoLeak m → NoLeak m1) := by
  obtain ⟨I, hb, hu, ⟨n, hn⟩, hw⟩ := S
  have hn' : (shape m).size = 4 * n := hn
  have hU : ∀ {c : Call} p, U p → ∃ o ∈ c :: past, o.uses = some (p / 4) := by
    intro c p hp
    obtain ⟨o, h1, h2⟩ := hu p hp
    exact ⟨o, List.mem_cons_of_mem _ h1, h2⟩
  have unusedU : ∀ {j}, (∀ o ∈ past, o.uses ≠ some j) → ∀ k, k < 4 → ¬ U (4 * j + k) := by
    intro j h k hk hp
    obtain ⟨o, h1, h2⟩ := hu _ hp
    rw [show (4 * j + k) / 4 = j by omega] at h2
    exact h o h1 h2
  have alive : ∀ {j}, Alive m j → ∀ k, k < 4 → (shape m).slot (4 * j + k) ≠ none := by
    intro j h k hk e
    exact slot_alive.1 h ((hw j k hk).1 e)
  have small : ∀ {j}, Alive m j → j < n := by
    intro j h
    by_contra hj
    exact slot_alive.1 h (slot_large (by omega))
  have newU : ∀ p, 4 * n ≤ p → ¬ U p := fun p h hp => by have := hb p hp; omega
  cases c with
  | newVector cs =>
    obtain ⟨F1, F2⟩ := vec_frame (m := m) (m1 := { m with vectors := m.vectors ++ [some cs] }) rfl rfl I
    exact ⟨_, U, rfl, ⟨F1, hb, hU, ⟨n, hn⟩, hw⟩, fun _ => F2⟩
  | freeVector v =>
    cases hv : m.vec v with
    | none => exact absurd hv live
    | some old =>
      obtain ⟨F1, F2⟩ := vec_frame (m := m) (m1 := { m with vectors := m.vectors.set v none }) rfl rfl I
      refine ⟨_, U, ?_, ⟨F1, hb, hU, ⟨n, hn⟩, hw⟩, fun _ => F2⟩
      simp only [Call.run, exec, Op.run, hv]
  | construct =>
    obtain ⟨m1, g1, g2, g3, g4⟩ := next_steps I [.construct, .construct, .construct, .construct]
      ⟨trivial, trivial, trivial, trivial, trivial⟩ (by simp [Op.copies])
    have hs : (shape m1).size = 4 * (n + 1) := by
      rw [g3]; show (shape m).size + 1 + 1 + 1 + 1 = _; omega
    refine ⟨m1, U, g1, ⟨g2.mono (by simp [Op.uses]), fun p hp => ?_, hU, ⟨n + 1, hs⟩, whole_of (j := n) (b := false) ?_ hw⟩,
      fun _ => g4 (by simp)⟩
    · have := hb p hp
      have : (shape m1).size = m1.objects.length := rfl
      omega
    · intro j' k hk
      rw [g3]
      simp only [Shape.after, Shape.next, Shape.put, hn']
      split_ifs <;> first | omega | simp
  | copy j =>
    have a := alive live
    have hj := small live
    have hnu := unusedU (hc j rfl)
    obtain ⟨m1, g1, g2, g3, g4⟩ := next_steps I [.copy (4 * j), .copy (4 * j + 1), .copy (4 * j + 2), .copy (4 * j + 3)]
      (by
        refine ⟨a 0 (by omega), ?_, ?_, ?_, trivial⟩
        all_goals
          simp only [Shape.Ok, Shape.next, Shape.put, hn']
          repeat rw [if_neg (by omega)]
          apply a; omega)
      (by
        have h0 := hnu 0 (by omega)
        simp only [List.mem_cons, List.not_mem_nil, or_false]
        rintro op (h | h | h | h) p hp <;> subst h <;> cases hp
        · exact ⟨h0, by simp [Op.uses]⟩
        · exact ⟨hnu 1 (by omega), by simp [Op.uses]⟩
        · exact ⟨hnu 2 (by omega), by simp [Op.uses]⟩
        · exact ⟨hnu 3 (by omega), by simp [Op.uses]⟩)
    have hs : (shape m1).size = 4 * (n + 1) := by
      rw [g3]; show (shape m).size + 1 + 1 + 1 + 1 = _; omega
    refine ⟨m1, U, g1, ⟨g2.mono (by simp [Op.uses]), fun p hp => ?_, hU, ⟨n + 1, hs⟩, whole_of (j := n) (b := false) ?_ hw⟩,
      fun _ => g4 (by simp)⟩
    · have := hb p hp
      have : (shape m1).size = m1.objects.length := rfl
      omega
    · intro j' k hk
      have b0 := a 0 (by omega)
      have b1 := a 1 (by omega)
      have b2 := a 2 (by omega)
      have b3 := a 3 (by omega)
      rw [Nat.add_zero] at b0
      rw [g3]
      simp only [Shape.after, Shape.next, Shape.put, hn']
      split_ifs <;> first | omega | simp_all
  | assign j i =>
    obtain ⟨live1, live2⟩ := live
    have a := alive live1
    have a' := alive live2
    have hnu := unusedU (hc i rfl)
    obtain ⟨m1, g1, g2, g3, g4⟩ := next_steps I [.assign (4 * j) (4 * i), .assign (4 * j + 1) (4 * i + 1),
        .assign (4 * j + 2) (4 * i + 2), .assign (4 * j + 3) (4 * i + 3)]
      (by
        have b0 := a 0 (by omega)
        have b1 := a 1 (by omega)
        have b2 := a 2 (by omega)
        have b3 := a 3 (by omega)
        have c0 := a' 0 (by omega)
        have c1 := a' 1 (by omega)
        have c2 := a' 2 (by omega)
        have c3 := a' 3 (by omega)
        refine ⟨⟨b0, c0⟩, ⟨?_, ?_⟩, ⟨?_, ?_⟩, ⟨?_, ?_⟩, trivial⟩
        all_goals
          simp only [Shape.next, Shape.put]
          split_ifs <;> assumption)
      (by
        have h0 := hnu 0 (by omega)
        simp only [List.mem_cons, List.not_mem_nil, or_false]
        rintro op (h | h | h | h) p hp <;> subst h <;> cases hp
        · exact ⟨h0, by simp [Op.uses]⟩
        · exact ⟨hnu 1 (by omega), by simp [Op.uses]⟩
        · exact ⟨hnu 2 (by omega), by simp [Op.uses]⟩
        · exact ⟨hnu 3 (by omega), by simp [Op.uses]⟩)
    have hs : (shape m1).size = 4 * n := by rw [g3]; exact hn'
    refine ⟨m1, U, g1, ⟨g2.mono (by simp [Op.uses]), fun p hp => ?_, hU, ⟨n, hs⟩, whole_of (j := j) (b := false) ?_ hw⟩,
      fun h => g4 ?_⟩
    · have := hb p hp
      have : (shape m1).size = m1.objects.length := rfl
      omega
    · intro j' k hk
      have b0 := a' 0 (by omega)
      have b1 := a' 1 (by omega)
      have b2 := a' 2 (by omega)
      have b3 := a' 3 (by omega)
      rw [Nat.add_zero] at b0
      rw [g3]
      simp only [Shape.after, Shape.next, Shape.put]
      split_ifs <;> first | omega | simp_all
    · have hnu := unusedU (h j rfl)
      have h0 := hnu 0 (by omega)
      intro q p hq
      simp only [List.mem_cons, List.not_mem_nil, or_false, Op.assign.injEq] at hq
      refine ⟨?_, by simp [Op.uses]⟩
      rcases hq with ⟨h, -⟩ | ⟨h, -⟩ | ⟨h, -⟩ | ⟨h, -⟩ <;> subst h
      · exact h0
      · exact hnu 1 (by omega)
      · exact hnu 2 (by omega)
      · exact hnu 3 (by omega)
  | destroy j =>
    have a := alive live
    obtain ⟨m1, g1, g2, g3, g4⟩ := next_steps I
      [.destroy (4 * j + 3), .destroy (4 * j + 2), .destroy (4 * j + 1), .destroy (4 * j)]
      (by
        refine ⟨a 3 (by omega), ?_, ?_, ?_, trivial⟩
        all_goals
          simp only [Shape.Ok, Shape.next, Shape.put]
          repeat rw [if_neg (by omega)]
        · exact a 2 (by omega)
        · exact a 1 (by omega)
        · exact a 0 (by omega))
      (by simp [Op.copies])
    have hs : (shape m1).size = 4 * n := by rw [g3]; exact hn'
    refine ⟨m1, U, g1, ⟨g2.mono (by simp [Op.uses]), fun p hp => ?_, hU, ⟨n, hs⟩, whole_of (j := j) (b := true) ?_ hw⟩,
      fun _ => g4 (by simp)⟩
    · have := hb p hp
      have : (shape m1).size = m1.objects.length := rfl
      omega
    · intro j' k hk
      rw [g3]
      simp only [Shape.after, Shape.next, Shape.put]
      split_ifs <;> first | omega | simp
  | setCable j core shell limit strain =>
    obtain ⟨l1, l2, l3⟩ := live
    have a := alive l1
    have hj := small l1
    obtain ⟨m1, g1, g2, g3, g4, g5, g6, g7, g8⟩ := setPart_facts I (p := 4 * j) (a 0 (by omega)) (a 1 (by omega)) l2 limit
      strain
    have e3 : m1.vectors = m.vectors := g3
    obtain ⟨m2, k1, k2, k3, k4, k5, k6, k7, k8⟩ := setPart_facts g2 (p := 4 * j + 2)
      (by rw [g5 _ (by omega) (by omega)]; exact a 2 (by omega))
      (by rw [g5 _ (by omega) (by omega)]; exact a 3 (by omega)) (part := shell)
      (fun c hc => by
        obtain ⟨x, y⟩ := l3 c hc
        unfold Coefficients.Alive vec
        rw [e3]
        exact ⟨x, y⟩) limit strain
    have hs : (shape m2).size = 4 * n := by rw [k4, g4]; exact hn'
    have hlen : m2.objects.length = m.objects.length := hs.trans hn.symm
    refine ⟨m2, _, ?_, ⟨k2, ?_, ?_, ⟨n, hs⟩, whole_of (j := j) (b := false) ?_ hw⟩, ?_⟩
    · simp only [Call.run]
      rw [g1]
      exact k1
    · rintro p ((h | ⟨_, h⟩) | ⟨_, h⟩)
      · rw [hlen]; exact hb p h
      · rw [hlen, hn]; omega
      · rw [hlen, hn]; omega
    · rintro p ((h | ⟨h1, h⟩) | ⟨h1, h⟩)
      · exact hU p h
      · refine ⟨_, List.mem_cons_self .., ?_⟩
        simp only [Call.uses, h1, Bool.true_or, if_true, Option.some.injEq]
        omega
      · refine ⟨_, List.mem_cons_self .., ?_⟩
        simp only [Call.uses, h1, Bool.or_true, if_true, Option.some.injEq]
        omega
    · intro j' k hk
      by_cases e : j' = j
      · subst e
        rw [if_pos rfl]
        have : (shape m2).slot (4 * j' + k) ≠ none := by
          rcases (by omega : k = 0 ∨ k = 1 ∨ k = 2 ∨ k = 3) with h | h | h | h <;> subst h
          · rw [k5 _ (by omega) (by omega)]; exact g6
          · rw [k5 _ (by omega) (by omega)]; exact g7
          · exact k6
          · exact k7
        simp [this]
      · rw [if_neg e, k5 _ (by omega) (by omega), g5 _ (by omega) (by omega)]
    · intro h N
      have un : (core = none ∨ shell = none) → ∀ k, k < 4 → ¬ U (4 * j + k) := by
        intro hcs
        refine unusedU (h j ?_)
        unfold Call.overwrites
        simp only
        rw [if_neg]
        rcases hcs with h | h <;> simp [h]
      refine k8 (fun hsh => ?_) (g8 (fun hco => ⟨un (Or.inl hco) 0 (by omega), un (Or.inl hco) 1 (by omega)⟩) N)
      have := un (Or.inr hsh)
      constructor
      · rintro (h | ⟨_, h⟩)
        · exact this 2 (by omega) h
        · omega
      · rintro (h | ⟨_, h⟩)
        · exact this 3 (by omega) h
        · omega
  | query j asks =>
    obtain ⟨l1, l2⟩ := live
    have hj := small l1
    have key : (shape m).Oks (asks.map fun a => a.2.op (4 * j + a.1)) ∧
        (shape m).after (asks.map fun a => a.2.op (4 * j + a.1)) = shape m := by
      clear hc
      induction asks with
      | nil => exact ⟨trivial, rfl⟩
      | cons x xs ih =>
        obtain ⟨o, v, h1, h2, h3⟩ := l2 x (List.mem_cons_self ..)
        have ok : ∃ v, (shape m).slot (4 * j + x.1) = some (some (.user v)) ∧ ((shape m).vectors[v]?).join ≠ none :=
          ⟨v, by show (m.obj _).map _ = _; rw [h1, ← h2]; rfl, h3⟩
        have e : (shape m).next (x.2.op (4 * j + x.1)) = shape m := by cases x.2 <;> rfl
        have e1 : (shape m).Ok (x.2.op (4 * j + x.1)) := by cases x.2 <;> exact ok
        obtain ⟨i1, i2⟩ := ih (fun a ha => l2 a (List.mem_cons_of_mem _ ha))
        refine ⟨⟨e1, ?_⟩, ?_⟩
        · rw [e]; exact i1
        · show ((shape m).next _).after _ = _
          rw [e]; exact i2
    have hm : ∀ op ∈ asks.map (fun a => a.2.op (4 * j + a.1)), op.copies = none ∧
        (∀ q, op.uses = some q → q / 4 = j ∧ q < 4 * n) ∧ ∀ q q', op ≠ .assign q q' := by
      intro op hop
      obtain ⟨x, _, rfl⟩ := List.mem_map.1 hop
      have hx : x.1.val < 4 := x.1.isLt
      refine ⟨by cases x.2 <;> rfl, ?_, by cases x.2 <;> simp [Ask.op]⟩
      intro q hq
      cases hx2 : x.2 with
      | y z => rw [hx2] at hq; cases hq
      | slope z => rw [hx2] at hq; simp only [Ask.op, Op.uses, Option.some.injEq] at hq; omega
      | solve t g => rw [hx2] at hq; simp only [Ask.op, Op.uses, Option.some.injEq] at hq; omega
    obtain ⟨m1, g1, g2, g3, g4⟩ := next_steps I _ key.1 (fun op ho p' hp' => by rw [(hm op ho).1] at hp'; cases hp')
    rw [key.2] at g3
    have hs : (shape m1).size = 4 * n := by rw [g3]; exact hn'
    have hlen : m1.objects.length = m.objects.length := hs.trans hn.symm
    refine ⟨m1, _, g1, ⟨g2, ?_, ?_, ⟨n, hs⟩, by rw [g3]; exact hw⟩,
      fun _ N => g4 (fun q q' h => absurd rfl ((hm _ h).2.2 q q')) N⟩
    · rintro p (h | ⟨op, h, h'⟩)
      · rw [hlen]; exact hb p h
      · rw [hlen, hn]; exact ((hm op h).2.1 p h').2
    · rintro p (h | ⟨op, h, h'⟩)
      · exact hU p h
      · exact ⟨_, List.mem_cons_self .., by rw [((hm op h).2.1 p h').1]; rfl⟩

/-- A legal program that copies no used model. -/
theorem run_sound {m : Mem} {past : List Call} {U : ℕ → Prop} (S : Sound m past U) (cs : List Call) (hl : Legal m cs)
    (hc : CopiesUnused past cs) :
    ∃ m1, run m cs = some m1 ∧ (∃ V, Sound m1 (cs.reverse ++ past) V) ∧
      (OverwritesUnused past cs → NoLeak m → NoLeak m1) := by
  induction cs generalizing m past U with
  | nil => exact ⟨m, rfl, ⟨U, S⟩, fun _ => id⟩
  | cons c cs ih =>
    obtain ⟨l1, l2⟩ := hl
    obtain ⟨c1, c2⟩ := hc
    obtain ⟨m1, V, g1, g2, g3⟩ := call_step S c l1 c1
    obtain ⟨m2, k1, k2, k3⟩ := ih g2 (l2 m1 g1) c2
    refine ⟨m2, ?_, ?_, fun h N => k3 h.2 (g3 h.1 N)⟩
    · show (c.run m).bind _ = _
      rw [g1]; exact k1
    · simpa using k2

theorem empty_sound : Sound Mem.empty [] (fun _ => False) where
  inv := ⟨by intro p o a h; simp [obj, Mem.empty] at h, by intro p o h; simp [obj, Mem.empty] at h,
    by intro p o h; simp [obj, Mem.empty] at h⟩
  bound := fun _ h => h.elim
  used := fun _ h => h.elim
  size := ⟨0, rfl⟩
  whole := by intro j k _; simp [shape, obj, Mem.empty]

end Verif.ElongationHeap
