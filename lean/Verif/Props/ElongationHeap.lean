import Verif.ElongationHeapLemmas

/-!
# C135 and C136: copying elongation models, and the memory they leave behind
-/

set_option linter.unusedSectionVars false

namespace Verif.Props
open Verif Verif.PolyHeap Verif.PolyHeap.Mem Verif.ElongationHeap

/-- **C135** for part of the programs: a program that makes, copies, assigns, sets, asks and destroys elongation models,
and copies only models that have not been given a cable or asked before, never frees memory twice and never reads freed
memory.

Missing: copies of models that have a cable, for which it is false (C135_double_delete). -/
theorem C135_safe_partial (cs : List Call) (hl : ElongationHeap.Legal Mem.empty cs)
    (hc : ElongationHeap.CopiesUnused [] cs) : run Mem.empty cs ≠ none := by
  obtain ⟨m, h, _⟩ := run_sound empty_sound cs hl hc
  rw [h]; simp

/-- A polynomial that has just been asked for a slope owns a derivative. -/
theorem slope_owns {m m1 : Mem} {U : ℕ → Prop} (I : Inv m U) {p : ℕ} {x : ℝ} {a : Ans}
    (h : (Op.slope p x).run m = some (m1, a)) (hok : (shape m).Ok (.slope p x)) :
    ∃ o d, m1.obj p = some o ∧ o.derivative = some d := by
  obtain ⟨v, h1, h2⟩ := hok
  have h1 : (m.obj p).map Obj.coefficients = some (some (.user v)) := h1
  cases hp : m.obj p with
  | none => rw [hp] at h1; cases h1
  | some o =>
    rw [hp] at h1
    have ho : o.coefficients = some (.user v) := by simpa using h1
    have hd : m.deref o.coefficients ≠ none := by rw [ho]; exact h2
    obtain ⟨m2, b, hu, H, _⟩ := PolyHeap.update_facts I hp hd
    simp only [Op.run, hp, hu] at h
    cases b with
    | false =>
      -- the coefficients are not the member vector, so the update returns
      exfalso
      unfold Mem.update at hu
      split_ifs at hu
      · cases hu
      · unfold updateDerivative at hu
        split at hu
        · cases hu
        · split_ifs at hu with hm
          · rw [ho] at hm; cases hm.1
          · split at hu
            · cases hu
            · cases hu
    | true =>
      obtain ⟨o1, k1, k2, k3⟩ := H.self
      obtain ⟨k4, d, k5, k6⟩ := k3 rfl
      simp only [k4] at h
      cases h
      exact ⟨o1, d, k1, k5⟩

/-- The polynomial owns a derivative. -/
def Owns (m : Mem) (p : ℕ) : Prop := ∃ o d, m.obj p = some o ∧ o.derivative = some d

/-- The calls on polynomials made by models with a cable. -/
def Plain : Op → Prop
  | .setCoefficients _ _ | .y _ _ | .slope _ _ | .solveX _ _ _ _ => True
  | _ => False

theorem update_owns {m m1 : Mem} {p q : ℕ} {o : PolyHeap.Obj} {b : Bool} (hq : m.obj q = some o)
    (h : m.update q o = some (m1, b)) (hp : Owns m p) : Owns m1 p := by
  obtain ⟨x, d, h1, h2⟩ := hp
  unfold Mem.update at h
  split_ifs at h with hu
  · cases h; exact ⟨x, d, h1, h2⟩
  · unfold updateDerivative at h
    split at h
    · cases h
    · rename_i cs hcs
      split_ifs at h with hm
      · cases h
        by_cases e : p = q
        · subst e
          rw [h1] at hq
          cases hq
          exact ⟨{ o with cache := [] }, d, by rw [obj_put h1, if_pos rfl], h2⟩
        · exact ⟨x, d, by rw [obj_put hq, if_neg e]; exact h1, h2⟩
      · split at h
        · cases h
        · rename_i m2 hf
          cases h
          obtain ⟨e1, e2⟩ := free_objects hf
          have hq2 : q < m2.objects.length := by rw [e1]; exact lt_of_slot hq
          have key : ∀ r, (({ m2 with
              objects := m2.objects.set q (some ⟨o.coefficients, Poly.derivCoefficients cs, some m2.heap.length, true⟩)
              heap := m2.heap ++ [some (.member q)] } : Mem)).obj r =
              if r = q then some ⟨o.coefficients, Poly.derivCoefficients cs, some m2.heap.length, true⟩ else m.obj r := by
            intro r
            have := slot_set (b := some ⟨o.coefficients, Poly.derivCoefficients cs, some m2.heap.length, true⟩) hq2 r
            unfold obj
            rw [← e1]
            exact this
          by_cases e : p = q
          · subst e
            exact ⟨_, _, by rw [key, if_pos rfl], rfl⟩
          · exact ⟨x, d, by rw [key, if_neg e]; exact h1, h2⟩

theorem plain_owns {m m1 : Mem} {p : ℕ} {op : Op} {a : Ans} (hop : Plain op) (h : op.run m = some (m1, a))
    (hp : Owns m p) : Owns m1 p := by
  cases op with
  | setCoefficients q ptr =>
    simp only [Op.run] at h
    split at h
    · cases h
    · rename_i o ho
      cases h
      obtain ⟨x, d, h1, h2⟩ := hp
      by_cases e : p = q
      · subst e
        rw [h1] at ho
        cases ho
        exact ⟨{ o with coefficients := some ptr, isUpdated := false }, d, by rw [obj_put h1, if_pos rfl], h2⟩
      · exact ⟨x, d, by rw [obj_put ho, if_neg e]; exact h1, h2⟩
  | y q x =>
    simp only [Op.run] at h
    split at h
    · cases h
    · split at h
      · cases h
      · cases h; exact hp
  | slope q x =>
    simp only [Op.run] at h
    split at h
    · cases h
    · rename_i o ho
      split at h
      · cases h
      · rename_i m2 hm; cases h; exact update_owns ho hm hp
      · rename_i m2 hm
        split at h
        · cases h
        · cases h; exact update_owns ho hm hp
  | solveX q t d g =>
    simp only [Op.run] at h
    split at h
    · cases h
    · rename_i o ho
      split at h
      · cases h
      · rename_i m2 hm; cases h; exact update_owns ho hm hp
      · rename_i m2 hm
        split at h
        · cases h
        · cases h; exact update_owns ho hm hp
        · split_ifs at h
          · split at h
            · cases h
            · cases h; exact update_owns ho hm hp
          · cases h; exact update_owns ho hm hp
  | _ => exact hop.elim

theorem exec_owns {m m1 : Mem} {p : ℕ} (ops : List Op) (hop : ∀ op ∈ ops, Plain op) (h : exec m ops = some m1)
    (hp : Owns m p) : Owns m1 p := by
  induction ops generalizing m with
  | nil => cases h; exact hp
  | cons op ops ih =>
    unfold exec at h
    split at h
    · cases h
    · rename_i m2 a h2
      exact ih (fun o ho => hop o (List.mem_cons_of_mem _ ho)) h (plain_owns (hop op (List.mem_cons_self ..)) h2 hp)

theorem exec_slope {m m1 : Mem} {U : ℕ → Prop} (I : Inv m U) {p : ℕ} {x : ℝ} (ops : List Op) (hop : ∀ op ∈ ops, Plain op)
    (hok : (shape m).Oks ops) (hx : Op.slope p x ∈ ops) (h : exec m ops = some m1) : Owns m1 p := by
  induction ops generalizing m U with
  | nil => cases hx
  | cons op ops ih =>
    have hpl := hop op (List.mem_cons_self ..)
    have hpl2 : ∀ o ∈ ops, Plain o := fun o ho => hop o (List.mem_cons_of_mem _ ho)
    obtain ⟨m2, a, g1, g2, g3, -⟩ := next_step I op hok.1 (by intro q hq; cases op <;> first | exact hpl.elim | cases hq)
    have h' : exec m2 ops = some m1 := by
      unfold exec at h
      rw [g1] at h
      exact h
    rcases List.mem_cons.1 hx with e | e
    · subst e
      exact exec_owns ops hpl2 h' (slope_owns I g1 hok.1)
    · exact ih g2 hpl2 (by rw [g3]; exact hok.2) e h'

/-- A component that is set owns the derivatives of its polynomials that are not empty. -/
theorem setPart_owns {m m1 : Mem} {U : ℕ → Prop} (I : Inv m U) {p : ℕ} (hp : (shape m).slot p ≠ none)
    (hp1 : (shape m).slot (p + 1) ≠ none) {c : Coefficients} (hv : c.Alive m) {limit strain : ℝ}
    (h : setPart m p limit strain (some c) = some m1) :
    (m.vec c.creep ≠ some [] → Owns m1 p) ∧ (m.vec c.loadStrain ≠ some [] → Owns m1 (p + 1)) := by
  obtain ⟨v1, v2⟩ := hv
  set s1 := ((shape m).put p (some (some (.user c.creep)))).put (p + 1) (some (some (.user c.loadStrain))) with hs1
  have q1 : s1.slot p = some (some (.user c.creep)) := by
    show (if p = p + 1 then _ else if p = p then _ else _) = _
    rw [if_neg (by omega), if_pos rfl]
  have q2 : s1.slot (p + 1) = some (some (.user c.loadStrain)) := by
    show (if p + 1 = p + 1 then _ else _) = _
    rw [if_pos rfl]
  have M : ∀ r v, (s1.slot r = some (some (.user v))) → m.vec v ≠ none →
      s1.Oks (modulus m r v limit strain) ∧ s1.after (modulus m r v limit strain) = s1 ∧
      (∀ op ∈ modulus m r v limit strain, Plain op) ∧
      (m.vec v ≠ some [] → Op.slope r strain ∈ modulus m r v limit strain) := by
    intro r v h1 h2
    unfold modulus
    split_ifs with hc
    · exact ⟨trivial, rfl, by simp, fun h => absurd hc h⟩
    · refine ⟨⟨⟨v, h1, h2⟩, ⟨v, h1, h2⟩, trivial⟩, rfl, ?_, by simp⟩
      simp [Plain]
  obtain ⟨M1, M2, M3, M4⟩ := M p c.creep q1 v1
  obtain ⟨N1, N2, N3, N4⟩ := M (p + 1) c.loadStrain q2 v2
  have hok : (shape m).Oks ([.setCoefficients p (.user c.creep), .setCoefficients (p + 1) (.user c.loadStrain)] ++
      modulus m p c.creep limit strain ++ modulus m (p + 1) c.loadStrain limit strain) := by
    rw [Shape.Oks_append, Shape.Oks_append, Shape.after_append]
    refine ⟨⟨⟨hp, ?_, trivial⟩, M1⟩, ?_⟩
    · show (if p + 1 = p then _ else _) ≠ _
      rw [if_neg (by omega)]; exact hp1
    · show (s1.after _).Oks _
      rw [M2]; exact N1
  have hpl : ∀ op ∈ ([.setCoefficients p (.user c.creep), .setCoefficients (p + 1) (.user c.loadStrain)] ++
      modulus m p c.creep limit strain ++ modulus m (p + 1) c.loadStrain limit strain), Plain op := by
    intro op hop
    simp only [List.mem_append, List.mem_cons, List.not_mem_nil, or_false] at hop
    rcases hop with ((h | h) | h) | h
    · subst h; trivial
    · subst h; trivial
    · exact M3 op h
    · exact N3 op h
  constructor
  · intro hne
    exact exec_slope I (p := p) _ hpl hok
      (List.mem_append_left _ (List.mem_append_right _ (M4 hne))) h
  · intro hne
    exact exec_slope I (p := p + 1) _ hpl hok (List.mem_append_right _ (N4 hne)) h

/-- Setting a component leaves other polynomials their derivatives. -/
theorem setPart_keeps {m m1 : Mem} {p q : ℕ} {part : Option Coefficients} {limit strain : ℝ}
    (h : setPart m p limit strain part = some m1) (h1 : q ≠ p) (h2 : q ≠ p + 1) (hq : Owns m q) : Owns m1 q := by
  cases part with
  | some c =>
    refine exec_owns _ ?_ h hq
    intro op hop
    simp only [List.mem_append, List.mem_cons, List.not_mem_nil, or_false] at hop
    unfold modulus at hop
    rcases hop with ((h | h) | h) | h
    · subst h; trivial
    · subst h; trivial
    · split_ifs at h
      · cases h
      · simp only [List.mem_cons, List.not_mem_nil, or_false] at h
        rcases h with h | h <;> subst h <;> trivial
    · split_ifs at h
      · cases h
      · simp only [List.mem_cons, List.not_mem_nil, or_false] at h
        rcases h with h | h <;> subst h <;> trivial
  | none =>
    simp only [setPart] at h
    split at h
    · rename_i o o' ho ho'
      cases h
      obtain ⟨x, d, k1, k2⟩ := hq
      refine ⟨x, d, ?_, k2⟩
      rw [obj_put (o' := o'), if_neg h2, obj_put ho, if_neg h1]
      · exact k1
      · rw [obj_put ho, if_neg (by omega)]; exact ho'
    · cases h

/-- The vector of the polynomial `k` of a cable: creep and load-strain of the core, then of the shell. -/
def coefficientsOf (core shell : Option Coefficients) (k : Fin 4) : Option ℕ :=
  match k with
  | 0 => core.map (·.creep)
  | 1 => core.map (·.loadStrain)
  | 2 => shell.map (·.creep)
  | 3 => shell.map (·.loadStrain)

/-- A model with a cable owns a derivative for each polynomial that is not empty. -/
theorem setCable_owns {m m1 : Mem} {past : List Call} {U : ℕ → Prop} (S : Sound m past U) {j : ℕ}
    {core shell : Option Coefficients} {limit strain : ℝ} (live : (Call.setCable j core shell limit strain).Live m)
    (h : (Call.setCable j core shell limit strain).run m = some m1) {k : Fin 4} {v : ℕ}
    (hk : coefficientsOf core shell k = some v) (hv : m.vec v ≠ some []) : Owns m1 (4 * j + k) := by
  obtain ⟨l1, l2, l3⟩ := live
  have a : ∀ k, k < 4 → (shape m).slot (4 * j + k) ≠ none := fun k hk e =>
    slot_alive.1 l1 ((S.whole j k hk).1 e)
  obtain ⟨m2, g1, g2, g3, g4, g5, g6, g7, g8⟩ := setPart_facts S.inv (p := 4 * j) (a 0 (by omega)) (a 1 (by omega)) l2
    limit strain
  have h' : setPart m2 (4 * j + 2) limit strain shell = some m1 := by
    simp only [Call.run] at h
    rw [g1] at h
    exact h
  have e3 : m2.vectors = m.vectors := g3
  match k, hk with
  | 0, hk =>
    cases core with
    | none => cases hk
    | some c =>
      cases hk
      exact setPart_keeps h' (by omega) (by omega)
        ((setPart_owns S.inv (a 0 (by omega)) (a 1 (by omega)) (l2 c rfl) g1).1 hv)
  | 1, hk =>
    cases core with
    | none => cases hk
    | some c =>
      cases hk
      exact setPart_keeps h' (by omega) (by omega)
        ((setPart_owns S.inv (a 0 (by omega)) (a 1 (by omega)) (l2 c rfl) g1).2 hv)
  | 2, hk =>
    cases shell with
    | none => cases hk
    | some c =>
      cases hk
      refine (setPart_owns g2 (p := 4 * j + 2) ?_ ?_ ?_ h').1 ?_
      · rw [g5 _ (by omega) (by omega)]; exact a 2 (by omega)
      · rw [g5 _ (by omega) (by omega)]; exact a 3 (by omega)
      · obtain ⟨x, y⟩ := l3 c rfl
        unfold Coefficients.Alive vec
        rw [e3]; exact ⟨x, y⟩
      · unfold vec; rw [e3]; exact hv
  | 3, hk =>
    cases shell with
    | none => cases hk
    | some c =>
      cases hk
      refine (setPart_owns g2 (p := 4 * j + 2) ?_ ?_ ?_ h').2 ?_
      · rw [g5 _ (by omega) (by omega)]; exact a 2 (by omega)
      · rw [g5 _ (by omega) (by omega)]; exact a 3 (by omega)
      · obtain ⟨x, y⟩ := l3 c rfl
        unfold Coefficients.Alive vec
        rw [e3]; exact ⟨x, y⟩
      · unfold vec; rw [e3]; exact hv

/-- Setting a cable makes no polynomials. -/
theorem setCable_size {m m1 : Mem} {past : List Call} {U : ℕ → Prop} (S : Sound m past U) {j : ℕ}
    {core shell : Option Coefficients} {limit strain : ℝ} (live : (Call.setCable j core shell limit strain).Live m)
    (h : (Call.setCable j core shell limit strain).run m = some m1) : m1.objects.length = m.objects.length := by
  obtain ⟨l1, l2, l3⟩ := live
  have a : ∀ k, k < 4 → (shape m).slot (4 * j + k) ≠ none := fun k hk e =>
    slot_alive.1 l1 ((S.whole j k hk).1 e)
  obtain ⟨m2, g1, g2, g3, g4, g5, g6, g7, g8⟩ := setPart_facts S.inv (p := 4 * j) (a 0 (by omega)) (a 1 (by omega)) l2
    limit strain
  have e3 : m2.vectors = m.vectors := g3
  obtain ⟨m3, k1, k2, k3, k4, _⟩ := setPart_facts g2 (p := 4 * j + 2) (part := shell)
    (by rw [g5 _ (by omega) (by omega)]; exact a 2 (by omega)) (by rw [g5 _ (by omega) (by omega)]; exact a 3 (by omega))
    (fun c hc => by
      obtain ⟨x, y⟩ := l3 c hc
      unfold Coefficients.Alive vec
      rw [e3]; exact ⟨x, y⟩) limit strain
  simp only [Call.run] at h
  rw [g1, Option.bind_some, k1] at h
  cases h
  exact k4.trans g4

/-! ## Destroying a model and its copy -/

theorem free_cells {m m1 : Mem} {d : Option ℕ} (h : m.free d = some m1) :
    (∀ a, m.cell a = none → m1.cell a = none) ∧ ∀ a, d = some a → m1.cell a = none := by
  unfold free at h
  split at h
  · cases h; exact ⟨fun a h => h, fun a h => by cases h⟩
  · rename_i b
    split at h
    · cases h
    · rename_i ptr hc
      cases h
      have key : ∀ a, ({ m with heap := m.heap.set b none } : Mem).cell a = if a = b then none else m.cell a :=
        fun a => slot_set (lt_of_slot hc) a
      refine ⟨fun a h => ?_, fun a h => ?_⟩
      · rw [key]; split_ifs
        · rfl
        · exact h
      · cases h; rw [key, if_pos rfl]

theorem destroy_run {m m1 : Mem} {p : ℕ} {a : Ans} (h : (Op.destroy p).run m = some (m1, a)) :
    (∀ q, q ≠ p → m1.obj q = m.obj q) ∧ (∀ b, m.cell b = none → m1.cell b = none) ∧
    ∀ o d, m.obj p = some o → o.derivative = some d → m1.cell d = none := by
  simp only [Op.run] at h
  split at h
  · cases h
  · rename_i o ho
    split at h
    · cases h
    · rename_i m2 hf
      cases h
      obtain ⟨e1, e2⟩ := free_objects hf
      obtain ⟨f1, f2⟩ := free_cells hf
      refine ⟨fun q hq => ?_, f1, fun o' d h1 h2 => ?_⟩
      · have := slot_set (l := m2.objects) (b := none) (by rw [e1]; exact lt_of_slot ho) q
        rw [if_neg hq, e1] at this
        unfold obj
        simp only
        rw [e1]
        exact this
      · rw [ho] at h1
        cases h1
        exact f2 d h2

theorem exec_cons {m m1 : Mem} {op : Op} {ops : List Op} (h : exec m (op :: ops) = some m1) :
    ∃ m2 a, op.run m = some (m2, a) ∧ exec m2 ops = some m1 := by
  unfold exec at h
  split at h
  · cases h
  · rename_i m2 a h2
    exact ⟨m2, a, h2, h⟩

/-- Destroying polynomials, one of which owns `d`. -/
theorem destroys_run {m m1 : Mem} (ps : List ℕ) (hn : ps.Nodup) (h : exec m (ps.map Op.destroy) = some m1) :
    (∀ q, q ∉ ps → m1.obj q = m.obj q) ∧ (∀ b, m.cell b = none → m1.cell b = none) ∧
    ∀ p ∈ ps, ∀ o d, m.obj p = some o → o.derivative = some d → m1.cell d = none := by
  induction ps generalizing m with
  | nil => cases h; exact ⟨fun _ _ => rfl, fun _ h => h, fun p hp => by cases hp⟩
  | cons p ps ih =>
    obtain ⟨m2, a, h1, h2⟩ := exec_cons h
    obtain ⟨d1, d2, d3⟩ := destroy_run h1
    obtain ⟨n1, n2⟩ := List.nodup_cons.1 hn
    obtain ⟨i1, i2, i3⟩ := ih n2 h2
    refine ⟨fun q hq => ?_, fun b hb => i2 b (d2 b hb), fun q hq o d h3 h4 => ?_⟩
    · rw [List.mem_cons, not_or] at hq
      rw [i1 q hq.2, d1 q hq.1]
    · rcases List.mem_cons.1 hq with e | e
      · subst e; exact i2 d (d3 o d h3 h4)
      · refine i3 q e o d ?_ h4
        rw [d1 q (by rintro rfl; exact n1 e)]; exact h3

/-- Destroying a polynomial whose derivative is gone is undefined. -/
theorem destroys_undefined {m : Mem} (ps : List ℕ) (hn : ps.Nodup) {p : ℕ} (hp : p ∈ ps) {o : PolyHeap.Obj} {d : ℕ}
    (h1 : m.obj p = some o) (h2 : o.derivative = some d) (h3 : m.cell d = none) :
    exec m (ps.map Op.destroy) = none := by
  induction ps generalizing m with
  | nil => cases hp
  | cons q ps ih =>
    obtain ⟨n1, n2⟩ := List.nodup_cons.1 hn
    by_contra hne
    obtain ⟨m1, h⟩ := Option.ne_none_iff_exists'.1 hne
    obtain ⟨m2, a, g1, g2⟩ := exec_cons h
    obtain ⟨d1, d2, d3⟩ := destroy_run g1
    rcases List.mem_cons.1 hp with e | e
    · subst e
      simp only [Op.run, h1, h2, free, h3] at g1
      cases g1
    · have := ih n2 e (m := m2) (by rw [d1 p (by rintro rfl; exact n1 e)]; exact h1) (d2 d h3)
      rw [this] at g2
      cases g2

theorem destroy_model (m : Mem) (j : ℕ) : (Call.destroy j).run m =
    exec m ([4 * j + 3, 4 * j + 2, 4 * j + 1, 4 * j].map Op.destroy) := rfl

theorem nodup_model (j : ℕ) : [4 * j + 3, 4 * j + 2, 4 * j + 1, 4 * j].Nodup := by simp

theorem mem_model (j : ℕ) (k : Fin 4) : 4 * j + k.val ∈ [4 * j + 3, 4 * j + 2, 4 * j + 1, 4 * j] := by
  have := k.isLt
  simp only [List.mem_cons, List.not_mem_nil, or_false]
  omega

/-- A copy of a model: its polynomials are those of the original. -/
theorem copy_model {m : Mem} {j n : ℕ} (hn : m.objects.length = 4 * n) (ha : ∀ k, k < 4 → m.obj (4 * j + k) ≠ none) :
    ∃ m1, (Call.copy j).run m = some m1 ∧ m1.vectors = m.vectors ∧ m1.heap = m.heap ∧
      (∀ q, q < 4 * n → m1.obj q = m.obj q) ∧ ∀ k, k < 4 → m1.obj (4 * n + k) = m.obj (4 * j + k) := by
  have hj : 4 * j + 3 < 4 * n := by
    by_contra h
    refine ha 3 (by omega) ?_
    unfold obj
    rw [List.getElem?_eq_none (by omega)]; rfl
  obtain ⟨o0, h0⟩ := Option.ne_none_iff_exists'.1 (ha 0 (by omega))
  obtain ⟨o1, h1⟩ := Option.ne_none_iff_exists'.1 (ha 1 (by omega))
  obtain ⟨o2, h2⟩ := Option.ne_none_iff_exists'.1 (ha 2 (by omega))
  obtain ⟨o3, h3⟩ := Option.ne_none_iff_exists'.1 (ha 3 (by omega))
  rw [Nat.add_zero] at h0
  have len : ∀ (m : Mem) o, (m.add o).objects.length = m.objects.length + 1 := fun m o => by
    show (m.objects ++ [some o]).length = _
    simp
  have g1 : (m.add o0).obj (4 * j + 1) = some o1 := by rw [obj_add, if_neg (by omega)]; exact h1
  have g2 : ((m.add o0).add o1).obj (4 * j + 2) = some o2 := by
    rw [obj_add, if_neg (by rw [len]; omega), obj_add, if_neg (by omega)]; exact h2
  have g3 : (((m.add o0).add o1).add o2).obj (4 * j + 3) = some o3 := by
    rw [obj_add, if_neg (by rw [len, len]; omega), obj_add, if_neg (by rw [len]; omega), obj_add, if_neg (by omega)]
    exact h3
  have key : ∀ q, ((((m.add o0).add o1).add o2).add o3).obj q = if q = 4 * n + 3 then some o3 else
      if q = 4 * n + 2 then some o2 else if q = 4 * n + 1 then some o1 else if q = 4 * n then some o0 else m.obj q := by
    intro q
    rw [obj_add, obj_add, obj_add, obj_add, len, len, len, hn]
  refine ⟨(((m.add o0).add o1).add o2).add o3, by simp only [Call.run, exec, Op.run, h0, g1, g2, g3], rfl, rfl, fun q hq => ?_, fun k hk => ?_⟩
  · rw [key, if_neg (by omega), if_neg (by omega), if_neg (by omega), if_neg (by omega)]
  · rw [key]
    rcases (by omega : k = 0 ∨ k = 1 ∨ k = 2 ∨ k = 3) with h | h | h | h <;> subst h
    · rw [if_neg (by omega), if_neg (by omega), if_neg (by omega), if_pos (by omega), Nat.add_zero, h0]
    · rw [if_neg (by omega), if_neg (by omega), if_pos rfl, h1]
    · rw [if_neg (by omega), if_pos rfl, h2]
    · rw [if_pos rfl, h3]

/-- **C135** fails for copies of models that have a cable: wherever a program may have got to, if a model that is given a
cable with a polynomial that is not empty is copied, and both models are destroyed, then the derivative of the polynomial
is deleted twice. -/
theorem C135_double_delete (cs : List Call) (hl : ElongationHeap.Legal Mem.empty cs)
    (hc : ElongationHeap.CopiesUnused [] cs) {m : Mem} (hm : run Mem.empty cs = some m) {j : ℕ}
    {core shell : Option Coefficients} {limit strain : ℝ} (live : (Call.setCable j core shell limit strain).Live m)
    {k : Fin 4} {v : ℕ} (hk : coefficientsOf core shell k = some v) (hv : m.vec v ≠ some []) :
    let more := [Call.setCable j core shell limit strain, .copy j, .destroy j, .destroy (m.objects.length / 4)]
    ElongationHeap.Legal m more ∧ run m more = none := by
  obtain ⟨m', r1, ⟨V, S⟩, _⟩ := run_sound empty_sound cs hl hc
  rw [hm] at r1
  cases r1
  obtain ⟨m1, W, g1, S1, _⟩ := call_step S (.setCable j core shell limit strain) live (fun j h => by cases h)
  have own := setCable_owns S live g1 hk hv
  obtain ⟨o, d, h1, h2⟩ := own
  obtain ⟨n, hn⟩ := S.size
  have hn1 : m1.objects.length = 4 * n := by
    have := setCable_size S live g1
    rw [this, hn]
  have al : Alive m1 j := by
    rw [slot_alive]
    intro e
    have := (S1.whole j k k.isLt).2 e
    unfold shape at this
    simp [h1] at this
  have ha : ∀ i, i < 4 → m1.obj (4 * j + i) ≠ none := by
    intro i hi e
    refine slot_alive.1 al ((S1.whole j i hi).1 ?_)
    unfold shape
    simp [e]
  obtain ⟨m2, c1, c2, c3, c4, c5⟩ := copy_model hn1 ha
  have jn : j < n := by
    have := lt_of_slot h1
    rw [hn1] at this
    omega
  have e4 : m.objects.length / 4 = n := by rw [hn]; omega
  have t : ∀ m3, (Call.destroy j).run m2 = some m3 →
      m3.obj (4 * n) = m2.obj (4 * n) ∧ m3.obj (4 * n + k) = some o ∧ m3.cell d = none := by
    intro m3 h3
    rw [destroy_model] at h3
    obtain ⟨d1, d2, d3⟩ := destroys_run _ (nodup_model j) h3
    refine ⟨d1 _ (by simp; omega), ?_, d3 _ (mem_model j k) o d ?_ h2⟩
    · rw [d1 _ (by have := k.isLt; simp; omega), c5 k k.isLt, h1]
    · rw [c4 _ (by have := k.isLt; omega), h1]
  have al2 : Alive m2 j := by
    unfold Alive
    rw [c4 _ (by omega)]
    exact al
  rw [e4]
  refine ⟨⟨live, fun m1' h => ?_⟩, ?_⟩
  · rw [g1] at h; cases h
    refine ⟨al, fun m2' h => ?_⟩
    rw [c1] at h; cases h
    refine ⟨al2, fun m3 h => ⟨?_, fun _ _ => trivial⟩⟩
    show m3.obj (4 * n) ≠ none
    rw [(t m3 h).1]
    have := c5 0 (by omega)
    rw [Nat.add_zero, Nat.add_zero] at this
    rw [this]
    exact al
  · simp only [run, g1, c1, Option.bind_some]
    cases h3 : (Call.destroy j).run m2 with
    | none => rfl
    | some m3 =>
      obtain ⟨_, t2, t3⟩ := t m3 h3
      rw [Option.bind_some, destroy_model, destroys_undefined _ (nodup_model n) (mem_model n k) t2 h2 t3]
      rfl

/-- A program that meets the hypotheses of C135_safe_partial and C136_freed_partial: a model is copied before it is used,
both are given cables, one is asked, and all is destroyed. -/
def exModels : List Call :=
  [.newVector [0, 2, 3], .newVector [], .construct, .copy 0, .setCable 0 (some ⟨1, 0⟩) (some ⟨0, 0⟩) 1 2,
    .setCable 1 none (some ⟨1, 0⟩) 1 2, .query 0 [(1, .slope 5), (3, .y 4)], .destroy 0, .destroy 1]

/-- The next call of a program. -/
theorem legal_next {m m1 : Mem} {c : Call} {cs : List Call} (hl : c.Live m) (hr : c.run m = some m1)
    (h : ElongationHeap.Legal m1 cs) : ElongationHeap.Legal m (c :: cs) :=
  ⟨hl, fun m2 h2 => by rw [hr] at h2; cases h2; exact h⟩

/-! ## Memory without an owner -/

/-- The cell `d` is allocated, and no polynomial will free it. -/
def Orphan (m : Mem) (d : ℕ) : Prop := m.cell d ≠ none ∧ ∀ p o, m.obj p = some o → o.derivative ≠ some d

theorem orphan_add {m : Mem} {d : ℕ} {o : PolyHeap.Obj} (h : Orphan m d) (ho : o.derivative ≠ some d) :
    Orphan (m.add o) d := by
  refine ⟨h.1, fun p o' hp => ?_⟩
  rw [obj_add] at hp
  split_ifs at hp
  · cases hp; exact ho
  · exact h.2 p o' hp

theorem orphan_put {m : Mem} {d p : ℕ} {o o' : PolyHeap.Obj} (h : Orphan m d) (hp : m.obj p = some o')
    (ho : o.derivative ≠ some d) : Orphan (m.put p o) d := by
  refine ⟨h.1, fun q x hq => ?_⟩
  rw [obj_put hp] at hq
  split_ifs at hq
  · cases hq; exact ho
  · exact h.2 q x hq

theorem orphan_free {m m1 : Mem} {d : ℕ} {x : Option ℕ} (h : Orphan m d) (hx : x ≠ some d) (hf : m.free x = some m1) :
    Orphan m1 d ∧ m1.objects = m.objects := by
  obtain ⟨e1, e2⟩ := free_objects hf
  refine ⟨⟨?_, fun p o hp => h.2 p o ?_⟩, e1⟩
  · unfold free at hf
    split at hf
    · cases hf; exact h.1
    · rename_i b
      split at hf
      · cases hf
      · rename_i ptr hc
        cases hf
        have := slot_set (b := none) (lt_of_slot hc) d
        rw [if_neg (by rintro rfl; exact hx rfl)] at this
        show ((m.heap.set b none)[d]?).join ≠ none
        rw [this]; exact h.1
  · unfold obj at hp ⊢
    rw [← e1]; exact hp

theorem orphan_update {m m1 : Mem} {d q : ℕ} {o : PolyHeap.Obj} {b : Bool} (h : Orphan m d) (hq : m.obj q = some o)
    (hu : m.update q o = some (m1, b)) : Orphan m1 d := by
  have ho := h.2 q o hq
  unfold Mem.update at hu
  split_ifs at hu with hb
  · cases hu; exact h
  · unfold updateDerivative at hu
    split at hu
    · cases hu
    · rename_i cs hcs
      split_ifs at hu with hm
      · cases hu
        exact orphan_put h hq ho
      · split at hu
        · cases hu
        · rename_i m2 hf
          cases hu
          obtain ⟨f1, f2⟩ := orphan_free h ho hf
          have hd : d < m2.heap.length := by
            obtain ⟨ptr, hp⟩ := Option.ne_none_iff_exists'.1 f1.1
            exact lt_of_slot hp
          refine ⟨?_, fun p x hp => ?_⟩
          · show ((m2.heap ++ [some (.member q)])[d]?).join ≠ none
            rw [slot_append, if_neg (by omega)]
            exact f1.1
          · have := slot_set (b := some ⟨o.coefficients, Poly.derivCoefficients cs, some m2.heap.length, true⟩)
              (by rw [f2]; exact lt_of_slot hq : q < m2.objects.length) p
            unfold obj at hp
            simp only at hp
            rw [this] at hp
            split_ifs at hp
            · cases hp
              simp only [ne_eq, Option.some.injEq]
              omega
            · exact f1.2 p x hp

/-- Memory without an owner is never freed. -/
theorem orphan_op {m m1 : Mem} {d : ℕ} {op : Op} {a : Ans} (h : Orphan m d) (hr : op.run m = some (m1, a)) :
    Orphan m1 d := by
  cases op <;> simp only [Op.run] at hr
  case newVector => cases hr; exact h
  case editVector => split at hr <;> cases hr; exact h
  case freeVector => split at hr <;> cases hr; exact h
  case construct => cases hr; exact orphan_add h (by simp)
  case constructWith => cases hr; exact orphan_add h (by simp)
  case copy =>
    split at hr
    · cases hr
    · rename_i o ho
      cases hr; exact orphan_add h (h.2 _ _ ho)
  case assign =>
    split at hr
    · rename_i o o' ho ho'
      cases hr; exact orphan_put h ho' (h.2 _ _ ho)
    · cases hr
  case destroy =>
    split at hr
    · cases hr
    · rename_i o ho
      split at hr
      · cases hr
      · rename_i m2 hf
        cases hr
        obtain ⟨f1, f2⟩ := orphan_free h (h.2 _ _ ho) hf
        refine ⟨f1.1, fun p x hp => ?_⟩
        have := slot_set (b := none) (by rw [f2]; exact lt_of_slot ho) (l := m2.objects) p
        unfold obj at hp
        simp only at hp
        rw [this] at hp
        split_ifs at hp
        exact f1.2 p x hp
  case setCoefficients =>
    split at hr
    · cases hr
    · rename_i o ho
      cases hr; exact orphan_put h ho (show o.derivative ≠ some d from h.2 _ _ ho)
  case y =>
    split at hr
    · cases hr
    · split at hr
      · cases hr
      · cases hr; exact h
  case slope =>
    split at hr
    · cases hr
    · rename_i o ho
      split at hr
      · cases hr
      · rename_i m2 hu
        cases hr; exact orphan_update h ho hu
      · rename_i m2 hu
        split at hr
        · cases hr
        · cases hr; exact orphan_update h ho hu
  case solveX =>
    split at hr
    · cases hr
    · rename_i o ho
      split at hr
      · cases hr
      · rename_i m2 hu
        cases hr; exact orphan_update h ho hu
      · rename_i m2 hu
        split at hr
        · cases hr
        · cases hr; exact orphan_update h ho hu
        · split_ifs at hr
          · split at hr
            · cases hr
            · cases hr; exact orphan_update h ho hu
          · cases hr; exact orphan_update h ho hu
  case validate =>
    split at hr
    · cases hr
    · rename_i o ho
      split at hr
      · cases hr
      · cases hr; exact h
      · split at hr
        · cases hr
        · rename_i m2 hu
          cases hr; exact orphan_update h ho hu
        · rename_i m2 hu
          cases hr; exact orphan_update h ho hu
  case derivative =>
    split at hr
    · cases hr
    · rename_i o ho
      split at hr
      · cases hr
      · rename_i m2 hu
        cases hr; exact orphan_update h ho hu
      · rename_i m2 hu
        split at hr
        · cases hr
        · split at hr
          · cases hr
          · split at hr
            · cases hr
            · cases hr
              exact orphan_add (orphan_update h ho hu) (by simp)

theorem orphan_exec {m m1 : Mem} {d : ℕ} (ops : List Op) (h : Orphan m d) (hr : exec m ops = some m1) : Orphan m1 d := by
  induction ops generalizing m with
  | nil => cases hr; exact h
  | cons op ops ih =>
    obtain ⟨m2, a, h1, h2⟩ := exec_cons hr
    exact ih (orphan_op h h1) h2

theorem orphan_setPart {m m1 : Mem} {d p : ℕ} {limit strain : ℝ} {part : Option Coefficients} (h : Orphan m d)
    (hr : setPart m p limit strain part = some m1) : Orphan m1 d := by
  cases part with
  | some c => exact orphan_exec _ h hr
  | none =>
    simp only [setPart] at hr
    split at hr
    · rename_i o o' ho ho'
      cases hr
      refine orphan_put (o' := o') (orphan_put h ho (by simp)) ?_ (by simp)
      rw [obj_put ho, if_neg (by omega)]; exact ho'
    · cases hr

theorem orphan_call {m m1 : Mem} {d : ℕ} {c : Call} (h : Orphan m d) (hr : c.run m = some m1) : Orphan m1 d := by
  cases c with
  | setCable j core shell limit strain =>
    obtain ⟨m2, h1, h2⟩ := Option.bind_eq_some_iff.1 (show (setPart m (4 * j) limit strain core).bind
      (fun m => setPart m (4 * j + 2) limit strain shell) = some m1 from hr)
    exact orphan_setPart (orphan_setPart h h1) h2
  | _ => exact orphan_exec _ h hr

theorem orphan_run {m m1 : Mem} {d : ℕ} (cs : List Call) (h : Orphan m d) (hr : run m cs = some m1) : Orphan m1 d := by
  induction cs generalizing m with
  | nil => cases hr; exact h
  | cons c cs ih =>
    obtain ⟨m2, h1, h2⟩ := Option.bind_eq_some_iff.1 hr
    exact ih (orphan_call h h1) h2

/-- Overwriting a component model leaves the derivatives of its polynomials behind. -/
theorem overwrite_orphan {m m1 : Mem} {U : ℕ → Prop} (I : Inv m U) {p q : ℕ} (hq : q = p ∨ q = p + 1) (own : Owns m q)
    {limit strain : ℝ} (h : setPart m p limit strain none = some m1) : ∃ d, Orphan m1 d := by
  obtain ⟨o, d, h1, h2⟩ := own
  have hc := I.owner q o d h1 h2
  simp only [setPart] at h
  split at h
  · rename_i o1 o2 k1 k2
    cases h
    refine ⟨d, ?_, fun r x hr e => ?_⟩
    · show m.cell d ≠ none
      rw [hc]; simp
    · have k3 : (m.put p ⟨none, [], none, false⟩).obj (p + 1) = some o2 := by
        rw [obj_put k1, if_neg (by omega)]; exact k2
      rw [obj_put k3, obj_put k1] at hr
      split_ifs at hr with n1 n2
      · cases hr; cases e
      · cases hr; cases e
      · have := I.owner r x d hr e
        rw [hc] at this
        cases this
        omega
  · cases h

/-! ## Memory that is left -/

theorem shape_objects {m m1 : Mem} (h1 : m1.vectors = m.vectors) (h2 : m1.objects = m.objects) : shape m1 = shape m := by
  unfold shape obj
  rw [h1, h2]

theorem polynomial_update_shape {m m1 : Mem} {q : ℕ} {o : PolyHeap.Obj} {b : Bool} (hq : m.obj q = some o)
    (hu : m.update q o = some (m1, b)) : shape m1 = shape m := by
  unfold Mem.update at hu
  split_ifs at hu with hb
  · cases hu; rfl
  · unfold updateDerivative at hu
    split at hu
    · cases hu
    · rename_i cs hcs
      have key : ∀ x : PolyHeap.Obj, x.coefficients = o.coefficients → shape (m.put q x) = shape m := by
        intro x hx
        unfold shape
        congr 1
        · show (m.objects.set q _).length = _
          rw [List.length_set]
        · funext r
          rw [obj_put hq]
          split_ifs with e
          · subst e; rw [hq]; simp [hx]
          · rfl
      split_ifs at hu with hm
      · cases hu
        exact key _ rfl
      · split at hu
        · cases hu
        · rename_i m2 hf
          cases hu
          obtain ⟨e1, e2⟩ := free_objects hf
          rw [← key ⟨o.coefficients, Poly.derivCoefficients cs, some m2.heap.length, true⟩ rfl]
          exact shape_objects e2 (by show m2.objects.set _ _ = m.objects.set _ _; rw [e1])

theorem plain_shape {m m1 : Mem} {op : Op} {a : Ans} (hop : Plain op) (hr : op.run m = some (m1, a)) :
    shape m1 = (shape m).next op := by
  cases op <;> simp only [Op.run] at hr <;> try exact hop.elim
  case setCoefficients =>
    split at hr
    · cases hr
    · rename_i o ho
      cases hr
      exact shape_put ho
  case y =>
    split at hr
    · cases hr
    · split at hr
      · cases hr
      · cases hr; rfl
  case slope =>
    split at hr
    · cases hr
    · rename_i o ho
      split at hr
      · cases hr
      · rename_i m2 hu
        cases hr; exact polynomial_update_shape ho hu
      · rename_i m2 hu
        split at hr
        · cases hr
        · cases hr; exact polynomial_update_shape ho hu
  case solveX =>
    split at hr
    · cases hr
    · rename_i o ho
      split at hr
      · cases hr
      · rename_i m2 hu
        cases hr; exact polynomial_update_shape ho hu
      · rename_i m2 hu
        split at hr
        · cases hr
        · cases hr; exact polynomial_update_shape ho hu
        · split_ifs at hr
          · split at hr
            · cases hr
            · cases hr; exact polynomial_update_shape ho hu
          · cases hr; exact polynomial_update_shape ho hu

theorem exec_shape {m m1 : Mem} (ops : List Op) (hop : ∀ op ∈ ops, Plain op) (hr : exec m ops = some m1) :
    shape m1 = (shape m).after ops := by
  induction ops generalizing m with
  | nil => cases hr; rfl
  | cons op ops ih =>
    obtain ⟨m2, a, h1, h2⟩ := exec_cons hr
    rw [ih (fun op h => hop op (List.mem_cons_of_mem _ h)) h2, plain_shape (hop op (List.mem_cons_self ..)) h1]
    rfl

/-- The coefficients that a component is left with. -/
theorem setPart_shape {m m1 : Mem} {p : ℕ} {limit strain : ℝ} {part : Option Coefficients}
    (h : setPart m p limit strain part = some m1) :
    shape m1 = ((shape m).put p (some (part.map fun c => .user c.creep))).put (p + 1)
      (some (part.map fun c => .user c.loadStrain)) := by
  cases part with
  | some c =>
    have M : ∀ (s : Shape) r v, (∀ op ∈ modulus m r v limit strain, Plain op) ∧
        s.after (modulus m r v limit strain) = s := by
      intro s r v
      unfold modulus
      split_ifs
      · simp [Shape.after]
      · simp [Plain, Shape.after, Shape.next]
    rw [exec_shape _ ?_ h, Shape.after_append, Shape.after_append, (M _ _ _).2, (M _ _ _).2]
    · rfl
    · intro op hop
      simp only [List.mem_append, List.mem_cons, List.not_mem_nil, or_false] at hop
      rcases hop with ((h | h) | h) | h
      · subst h; trivial
      · subst h; trivial
      · exact (M (shape m) _ _).1 op h
      · exact (M (shape m) _ _).1 op h
  | none =>
    simp only [setPart] at h
    split at h
    · rename_i o o' ho ho'
      cases h
      have h2 : (m.put p ⟨none, [], none, false⟩).obj (p + 1) = some o' := by
        rw [obj_put ho, if_neg (by omega)]; exact ho'
      rw [shape_put h2, shape_put ho]
      rfl
    · cases h

/-- The coefficients that a model is left with. -/
theorem setCable_shape {m m1 : Mem} {j : ℕ} {limit strain : ℝ} {core shell : Option Coefficients}
    (h : (Call.setCable j core shell limit strain).run m = some m1) :
    shape m1 = ((((shape m).put (4 * j) (some (core.map fun c => .user c.creep))).put (4 * j + 1)
      (some (core.map fun c => .user c.loadStrain))).put (4 * j + 2) (some (shell.map fun c => .user c.creep))).put
      (4 * j + 2 + 1) (some (shell.map fun c => .user c.loadStrain)) := by
  obtain ⟨m2, h1, h2⟩ := Option.bind_eq_some_iff.1 (show (setPart m (4 * j) limit strain core).bind
    (fun m => setPart m (4 * j + 2) limit strain shell) = some m1 from h)
  rw [setPart_shape h2, setPart_shape h1]

/-- Whether a model is alive, from the shape. -/
theorem alive_of {m : Mem} {s : Shape} (h : shape m = s) {j : ℕ} (hs : s.slot (4 * j) ≠ none) : Alive m j := by
  rw [slot_alive, h]; exact hs

theorem vec_of {m : Mem} {s : Shape} (h : shape m = s) {v : ℕ} (hs : (s.vectors[v]?).join ≠ none) : m.vec v ≠ none := by
  subst h; exact hs

theorem asked_of {m : Mem} {s : Shape} (h : shape m = s) {p v : ℕ} (h1 : s.slot p = some (some (.user v)))
    (h2 : (s.vectors[v]?).join ≠ none) :
    ∃ o v, m.obj p = some o ∧ o.coefficients = some (.user v) ∧ m.vec v ≠ none := by
  subst h
  obtain ⟨o, h3, h4⟩ := Option.map_eq_some_iff.1 (show (m.obj p).map PolyHeap.Obj.coefficients = _ from h1)
  exact ⟨o, v, h3, h4, h2⟩

theorem destroys_shape {m m1 : Mem} (ps : List ℕ) (hr : exec m (ps.map Op.destroy) = some m1) :
    shape m1 = (shape m).after (ps.map Op.destroy) := by
  induction ps generalizing m with
  | nil => cases hr; rfl
  | cons p ps ih =>
    obtain ⟨m2, a, h1, h2⟩ := exec_cons hr
    rw [ih h2]
    simp only [Op.run] at h1
    split at h1
    · cases h1
    · rename_i o ho
      split at h1
      · cases h1
      · rename_i m3 hf
        cases h1
        obtain ⟨e1, e2⟩ := free_objects hf
        show _ = ((shape m).put p none).after _
        congr 1
        unfold shape Shape.put
        simp only
        congr 1
        · rw [e1, List.length_set]
        · funext r
          have := slot_set (l := m3.objects) (b := none) (by rw [e1]; exact lt_of_slot ho) r
          unfold obj
          simp only
          rw [this, e1]
          split_ifs <;> rfl

/-- The memory of the example once both models exist. -/
def exMem : Mem :=
  { Mem.empty with vectors := [some [0, 2, 3], some []], objects := List.replicate 8 (some ⟨none, [], none, false⟩) }

theorem exMem_shape : shape exMem = ⟨[some [0, 2, 3], some []], 8, (shape exMem).slot⟩ := rfl

theorem exModels_legal : ElongationHeap.Legal Mem.empty exModels := by
  refine legal_next (m1 := { Mem.empty with vectors := [some [0, 2, 3]] }) trivial rfl
    (legal_next (m1 := { Mem.empty with vectors := [some [0, 2, 3], some []] }) trivial rfl
    (legal_next (m1 := { exMem with objects := List.replicate 4 (some ⟨none, [], none, false⟩) }) trivial rfl
    (legal_next (m1 := exMem) (by simp [Call.Live, Alive, obj]) rfl ?_)))
  have a0 : (shape exMem).slot 0 = some none := rfl
  have a4 : (shape exMem).slot 4 = some none := rfl
  refine ⟨⟨alive_of rfl (by simp [a0]), ?_, ?_⟩, fun m1 h1 => ?_⟩
  · rintro c ⟨⟩; exact ⟨vec_of exMem_shape (by simp), vec_of exMem_shape (by simp)⟩
  · rintro c ⟨⟩; exact ⟨vec_of exMem_shape (by simp), vec_of exMem_shape (by simp)⟩
  have s1 := setCable_shape h1
  rw [exMem_shape] at s1
  refine ⟨⟨alive_of s1 (by simp [Shape.put, a4]), by simp, ?_⟩, fun m2 h2 => ?_⟩
  · rintro c ⟨⟩; exact ⟨vec_of s1 (by simp [Shape.put]), vec_of s1 (by simp [Shape.put])⟩
  have s2 := setCable_shape h2
  rw [s1] at s2
  refine ⟨⟨alive_of s2 (by simp [Shape.put]), ?_⟩, fun m3 h3 => ?_⟩
  · intro a ha
    simp only [List.mem_cons, List.not_mem_nil, or_false] at ha
    rcases ha with rfl | rfl
    · exact asked_of (p := 1) s2 (v := 0) (by simp [Shape.put]) (by simp [Shape.put])
    · exact asked_of (p := 3) s2 (v := 0) (by simp [Shape.put]) (by simp [Shape.put])
  have s3 := exec_shape _ (by simp [Ask.op, Plain]) h3
  rw [s2] at s3
  refine ⟨alive_of s3 (by simp [Shape.put, Shape.after, Shape.next, Ask.op]), fun m4 h4 => ⟨?_, fun _ _ => trivial⟩⟩
  have s4 := destroys_shape [3, 2, 1, 0] h4
  rw [s3] at s4
  exact alive_of s4 (by simp [Shape.put, Shape.after, Shape.next, Ask.op])

theorem exModels_copies : ElongationHeap.CopiesUnused [] exModels := by
  simp [exModels, ElongationHeap.CopiesUnused, Call.copies, Call.uses]

theorem exModels_overwrites : OverwritesUnused [] exModels := by
  simp [exModels, OverwritesUnused, Call.overwrites, Call.uses]

example : run Mem.empty exModels ≠ none := C135_safe_partial exModels exModels_legal exModels_copies

/-- **C136** for part of the programs: a program that copies only models that have not been used before, assigns only to
such models, and does not give a used model a cable without a core or shell, has freed the memory of every model that it
destroyed: the memory that is left belongs to models that are alive.

Missing: models that are overwritten after they were used, for which it is false (C136_leak). -/
theorem C136_freed_partial (cs : List Call) (hl : ElongationHeap.Legal Mem.empty cs)
    (hc : ElongationHeap.CopiesUnused [] cs) (ho : OverwritesUnused [] cs) :
    ∃ m, run Mem.empty cs = some m ∧ (∀ a, m.cell a ≠ none → ∃ j, Alive m j) ∧
      ((∀ j, ¬ Alive m j) → ∀ a, m.cell a = none) := by
  obtain ⟨m, h, ⟨V, S⟩, N⟩ := run_sound empty_sound cs hl hc
  have N := N ho (fun a ptr h => by simp [cell, Mem.empty] at h)
  have key : ∀ a, m.cell a ≠ none → ∃ j, Alive m j := by
    intro a ha
    obtain ⟨ptr, hp⟩ := Option.ne_none_iff_exists'.1 ha
    obtain ⟨p, o, h1, _⟩ := N a ptr hp
    refine ⟨p / 4, slot_alive.2 fun e => ?_⟩
    have := (S.whole (p / 4) (p % 4) (by omega)).2 e
    rw [show 4 * (p / 4) + p % 4 = p by omega] at this
    unfold shape at this
    simp [h1] at this
  refine ⟨m, h, key, fun hd a => ?_⟩
  by_contra ha
  obtain ⟨j, hj⟩ := key a ha
  exact hd j hj

example : ∃ m, run Mem.empty exModels = some m ∧ (∀ a, m.cell a ≠ none → ∃ j, Alive m j) ∧
    ((∀ j, ¬ Alive m j) → ∀ a, m.cell a = none) :=
  C136_freed_partial exModels exModels_legal exModels_copies exModels_overwrites

/-- **C136** fails for cables without a core: wherever a program may have got to, if a model is given a cable with a core
polynomial that is not empty, and then a cable without a core, some memory is never freed, whatever else is called. -/
theorem C136_leak (cs : List Call) (hl : ElongationHeap.Legal Mem.empty cs)
    (hc : ElongationHeap.CopiesUnused [] cs) {m : Mem} (hm : run Mem.empty cs = some m) {j : ℕ} {c : Coefficients}
    {shell shell' : Option Coefficients} {limit strain limit' strain' : ℝ}
    (live : (Call.setCable j (some c) shell limit strain).Live m)
    (live' : ∀ c, shell' = some c → c.Alive m) (hv : m.vec c.creep ≠ some [] ∨ m.vec c.loadStrain ≠ some []) :
    ∃ m1, run m [.setCable j (some c) shell limit strain, .setCable j none shell' limit' strain'] = some m1 ∧
      ∃ d, m1.cell d ≠ none ∧ ∀ more m2, run m1 more = some m2 → m2.cell d ≠ none := by
  obtain ⟨m', r1, ⟨V, S⟩, _⟩ := run_sound empty_sound cs hl hc
  rw [hm] at r1
  cases r1
  obtain ⟨m1, W, g1, S1, _⟩ := call_step S (.setCable j (some c) shell limit strain) live (fun j h => by cases h)
  obtain ⟨k, hk, own⟩ : ∃ k : ℕ, (k = 0 ∨ k = 1) ∧ Owns m1 (4 * j + k) := by
    rcases hv with h | h
    · exact ⟨0, Or.inl rfl, setCable_owns S live g1 (k := 0) rfl h⟩
    · exact ⟨1, Or.inr rfl, setCable_owns S live g1 (k := 1) rfl h⟩
  have s1 := setCable_shape g1
  have al : Alive m1 j := by
    refine alive_of s1 ?_
    simp only [Shape.put]
    split_ifs <;> simp
  have l2 : (Call.setCable j none shell' limit' strain').Live m1 := by
    refine ⟨al, fun c h => (by cases h), fun c h => ?_⟩
    obtain ⟨x, y⟩ := live' c h
    exact ⟨vec_of s1 x, vec_of s1 y⟩
  obtain ⟨m2, W2, g2, S2, _⟩ := call_step S1 _ l2 (fun j h => by cases h)
  obtain ⟨m3, h1, h2⟩ := Option.bind_eq_some_iff.1 (show (setPart m1 (4 * j) limit' strain' none).bind
    (fun m => setPart m (4 * j + 2) limit' strain' shell') = some m2 from g2)
  obtain ⟨d, hd⟩ := overwrite_orphan S1.inv (q := 4 * j + k) (by omega) own h1
  have hd2 := orphan_setPart hd h2
  refine ⟨m2, ?_, d, hd2.1, fun more m4 h => (orphan_run more hd2 h).1⟩
  simp only [run, g1, g2, Option.bind_some]

/-- A program that meets the hypotheses of C135_double_delete and C136_leak. -/
def exOneModel : List Call := [.newVector [0, 2, 3], .construct]

theorem exOneModel_legal : ElongationHeap.Legal Mem.empty exOneModel :=
  legal_next trivial rfl ⟨trivial, fun _ _ => trivial⟩

theorem exOneModel_copies : ElongationHeap.CopiesUnused [] exOneModel := by
  simp [exOneModel, ElongationHeap.CopiesUnused, Call.copies]

/-- Where that program gets to. -/
def exOneMem : Mem :=
  { Mem.empty with vectors := [some [0, 2, 3]], objects := List.replicate 4 (some ⟨none, [], none, false⟩) }

theorem exOneModel_run : run Mem.empty exOneModel = some exOneMem := rfl

example : run exOneMem [.setCable 0 (some ⟨0, 0⟩) none 1 2, .copy 0, .destroy 0, .destroy 1] = none :=
  (C135_double_delete exOneModel exOneModel_legal exOneModel_copies exOneModel_run (core := some ⟨0, 0⟩) (k := 0) (v := 0)
    ⟨by simp [Alive, obj, exOneMem], by rintro c ⟨⟩; simp [Coefficients.Alive, vec, exOneMem], by simp⟩ rfl
    (by simp [vec, exOneMem])).2

example : ∃ m1, run exOneMem [.setCable 0 (some ⟨0, 0⟩) none 1 2, .setCable 0 none (some ⟨0, 0⟩) 1 2] = some m1 ∧
    ∃ d, m1.cell d ≠ none ∧ ∀ more m2, run m1 more = some m2 → m2.cell d ≠ none :=
  C136_leak exOneModel exOneModel_legal exOneModel_copies exOneModel_run (c := ⟨0, 0⟩)
    ⟨by simp [Alive, obj, exOneMem], by rintro c ⟨⟩; simp [Coefficients.Alive, vec, exOneMem], by simp⟩
    (by rintro c ⟨⟩; simp [Coefficients.Alive, vec, exOneMem]) (Or.inl (by simp [vec, exOneMem]))

end Verif.Props
