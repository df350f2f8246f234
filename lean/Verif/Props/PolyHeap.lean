import Verif.PolyHeapLemmas
import Verif.PolynomialLemmas

set_option linter.unusedSectionVars false

/-! # Properties of copied and destroyed polynomials (C130, C131, C132) -/

namespace Verif.Props
open Verif.PolyHeap Verif.Poly

theorem empty_inv (U : ℕ → Prop) : Inv Mem.empty U := by
  refine ⟨?_, ?_, ?_⟩
  · intro p o a h; simp [Mem.obj, Mem.empty] at h
  · intro p o h; simp [Mem.obj, Mem.empty] at h
  · intro p o h; simp [Mem.obj, Mem.empty] at h

/-- The polynomials used by the calls of a program. -/
def Used (ops : List Op) (p : ℕ) : Prop := ∃ op ∈ ops, op.uses = some p

/-- Legal programs that copy unused polynomials only keep ownership. -/
theorem heap_exec {m : Mem} {past : List Op} (ops : List Op) (I : Inv m (Used past)) (hl : Legal m ops)
    (hc : CopiesUnused past ops) :
    ∃ m1, exec m ops = some m1 ∧ Inv m1 (Used (ops.reverse ++ past)) ∧
      ((∀ v cs, Op.editVector v cs ∉ ops) → Content m → Content m1) := by
  induction ops generalizing m past with
  | nil => exact ⟨m, rfl, I, fun _ => id⟩
  | cons op ops ih =>
    obtain ⟨live, rest⟩ := hl
    obtain ⟨c1, c2⟩ := hc
    obtain ⟨m1, a, hr, I1, _, C1⟩ := step I op live (fun p hp => by
      rintro ⟨o, ho, hu⟩
      exact c1 p hp o ho hu)
    have I1 : Inv m1 (Used (op :: past)) := I1.mono (by
      rintro q (⟨o, ho, hu⟩ | hu)
      · exact ⟨o, List.mem_cons_of_mem _ ho, hu⟩
      · exact ⟨op, List.mem_cons_self, hu⟩)
    obtain ⟨m2, he, I2, C2⟩ := ih I1 (rest m1 a hr) c2
    refine ⟨m2, ?_, ?_, ?_⟩
    · rw [exec, hr]; exact he
    · simpa using I2
    · intro hne C
      refine C2 (fun v cs h => hne v cs (List.mem_cons_of_mem _ h)) (C1 (fun v cs h => ?_) C)
      exact hne v cs (h ▸ List.mem_cons_self)

/-! ## C130 -/

/-- C130 for part of the programs: a program that uses polynomials and vectors while they are alive, and copies or
assigns from polynomials only before these were asked for a slope, an x, a validation or a derivative, has no undefined
behaviour.  Missing: copies of polynomials that have been used, for which it is false. -/
theorem C130_safe_partial (ops : List Op) (hl : Legal Mem.empty ops) (hc : CopiesUnused [] ops) :
    exec Mem.empty ops ≠ none := by
  obtain ⟨m, h, _⟩ := heap_exec ops (empty_inv _) hl hc
  rw [h]; simp

/-- The caller makes a vector and a polynomial of it, and asks for a slope. -/
def usedPolynomial (cs : List ℝ) (x : ℝ) : List Op := [.newVector cs, .constructWith (.user 0), .slope 0 x]

/-- Memory after `usedPolynomial`. -/
theorem used_exec (cs : List ℝ) (x : ℝ) : exec Mem.empty (usedPolynomial cs x) =
    some ⟨[some cs], [some ⟨some (.user 0), derivCoefficients cs, some 0, true⟩], [some (.member 0)]⟩ := rfl

/-- A program whose calls are all defined and live. -/
theorem legal_cons {m m1 : Mem} {a : Ans} {op : Op} {ops : List Op} (hl : op.Live m) (hr : op.run m = some (m1, a))
    (h : Legal m1 ops) : Legal m (op :: ops) :=
  ⟨hl, fun m2 b h2 => by rw [hr] at h2; cases h2; exact h⟩

/-- The last call of a legal program may be undefined. -/
theorem legal_last {m : Mem} {op : Op} (hl : op.Live m) : Legal m [op] := ⟨hl, fun _ _ _ => trivial⟩

theorem legal_used (cs : List ℝ) (x : ℝ) (ops : List Op)
    (h : Legal ⟨[some cs], [some ⟨some (.user 0), derivCoefficients cs, some 0, true⟩], [some (.member 0)]⟩ ops) :
    Legal Mem.empty (usedPolynomial cs x ++ ops) := by
  refine legal_cons trivial rfl (legal_cons trivial rfl (legal_cons ⟨_, rfl, ?_⟩ rfl h))
  show some cs ≠ none
  simp

/-- C130 fails: after a slope was asked for, destroying a copy and the original frees the same memory twice, whatever the
coefficients. -/
theorem C130_double_delete (cs : List ℝ) (x : ℝ) :
    Legal Mem.empty (usedPolynomial cs x ++ [.copy 0, .destroy 0, .destroy 1]) ∧
    exec Mem.empty (usedPolynomial cs x ++ [.copy 0, .destroy 0, .destroy 1]) = none := by
  refine ⟨legal_used cs x _ (legal_cons ?_ rfl (legal_cons ?_ rfl (legal_last ?_))), rfl⟩
  all_goals simp [Op.Live, Mem.obj, Mem.add]

/-- C130 fails: a copy of a polynomial that was asked for a slope reads freed memory when the original is gone. -/
theorem C130_use_after_free (cs : List ℝ) (x z : ℝ) :
    Legal Mem.empty (usedPolynomial cs x ++ [.copy 0, .destroy 0, .slope 1 z]) ∧
    exec Mem.empty (usedPolynomial cs x ++ [.copy 0, .destroy 0, .slope 1 z]) = none := by
  refine ⟨legal_used cs x _ (legal_cons ?_ rfl (legal_cons ?_ rfl (legal_last ?_))), rfl⟩
  all_goals simp [Op.Live, Mem.obj, Mem.add, Mem.deref, Mem.vec]

/-- C130 fails: giving the copy other coefficients and asking for its slope frees the derivative of the original. -/
theorem C130_copy_spoils (cs ds : List ℝ) (x z : ℝ) :
    Legal Mem.empty (usedPolynomial cs x ++
      [.newVector ds, .copy 0, .setCoefficients 1 (.user 1), .slope 1 z, .slope 0 z]) ∧
    exec Mem.empty (usedPolynomial cs x ++
      [.newVector ds, .copy 0, .setCoefficients 1 (.user 1), .slope 1 z, .slope 0 z]) = none := by
  refine ⟨legal_used cs x _ (legal_cons trivial rfl (legal_cons ?_ rfl (legal_cons ?_ rfl (legal_cons ?_ rfl
    (legal_last ?_))))), rfl⟩
  all_goals simp [Op.Live, Mem.obj, Mem.add, Mem.put, Mem.deref, Mem.vec]

/-- The hypotheses of C130 are met: two polynomials, one copied before use, both used and destroyed. -/
theorem exPrograms (cs : List ℝ) (x : ℝ) :
    Legal Mem.empty [.newVector cs, .constructWith (.user 0), .copy 0, .slope 0 x, .slope 1 x, .destroy 0, .slope 1 x,
      .destroy 1] := by
  refine legal_cons trivial rfl (legal_cons trivial rfl (legal_cons ?_ rfl (legal_cons ?_ rfl (legal_cons ?_ rfl
    (legal_cons ?_ rfl (legal_cons ?_ rfl (legal_last ?_)))))))
  all_goals simp [Op.Live, Mem.obj, Mem.add, Mem.deref, Mem.vec, Mem.empty]

example (cs : List ℝ) (x : ℝ) : exec Mem.empty [.newVector cs, .constructWith (.user 0), .copy 0, .slope 0 x,
    .slope 1 x, .destroy 0, .slope 1 x, .destroy 1] ≠ none :=
  C130_safe_partial _ (exPrograms cs x) (by simp [CopiesUnused, Op.copies, Op.uses])

/-! ## C131 -/

theorem empty_content : Content Mem.empty := by
  intro p o v h; simp [Mem.obj, Mem.empty] at h

/-- Updating a polynomial on a live vector of the caller. -/
theorem user_update {m : Mem} {U : ℕ → Prop} (I : Inv m U) (C : Content m) {p : ℕ} {o : PolyHeap.Obj} {v : ℕ}
    {cs : List ℝ} (hp : m.obj p = some o) (ho : o.coefficients = some (.user v)) (hv : m.vec v = some cs) :
    ∃ m1 o1 a, m.update p o = some (m1, true) ∧ m1.obj p = some o1 ∧ o1.derivative = some a ∧
      m1.cell a = some (.member p) ∧ o1.cache = derivCoefficients cs ∧ o1.isUpdated = true ∧
      m1.slopes p = some o1.cache := by
  have hd : m.deref o.coefficients = some cs := by rw [ho]; exact hv
  have hdn : m.deref o.coefficients ≠ none := by rw [hd]; simp
  obtain ⟨m1, b, hu, H, _, _, C1⟩ := update_facts I hp hdn
  obtain ⟨o1, h1, h2, h3⟩ := H.self
  have key : b = true ∧ o1.isUpdated = true := by
    revert hu
    unfold Mem.update Mem.updateDerivative
    rw [hd]
    by_cases g1 : o.isUpdated = true
    · rw [if_pos g1]
      intro h; cases h
      rw [hp] at h1; cases h1; exact ⟨rfl, g1⟩
    · rw [if_neg g1]
      simp only
      rw [if_neg (by rw [ho]; simp)]
      intro h
      cases hf : m.free o.derivative with
      | none => rw [hf] at h; cases h
      | some mf =>
        rw [hf] at h
        cases h
        have hobjs : mf.objects = m.objects := by
          obtain ⟨m4, e4, e5, _⟩ := free_facts I hp
          rw [hf] at e4; cases e4; exact e5
        have := slot_set (l := mf.objects)
          (b := some (⟨o.coefficients, derivCoefficients cs, some mf.heap.length, true⟩ : PolyHeap.Obj))
          (by rw [hobjs]; exact lt_of_slot hp) p
        rw [if_pos rfl] at this
        have h1 : ((mf.objects.set p (some ⟨o.coefficients, derivCoefficients cs, some mf.heap.length, true⟩))[p]?).join
          = some o1 := h1
        rw [this] at h1
        cases h1
        exact ⟨rfl, rfl⟩
  obtain ⟨rfl, hu1⟩ := key
  obtain ⟨h4, a, h5, h6⟩ := h3 rfl
  refine ⟨m1, o1, a, hu, h1, h5, h6, (C1 C p o1 v h1 hu1 (h2.trans ho)).2 cs ?_, hu1, h4⟩
  unfold Mem.vec
  rw [H.vectors]
  exact hv

theorem slope_deriv (cs : List ℝ) (x : ℝ) :
    HasDerivAt (fun z => evalY cs z) (evalY (derivCoefficients cs) x) x := by
  rw [evalY_deriv cs x]
  simpa only [evalY_eq] using! hasDerivAt_sumFrom 0 cs x

/-- C131 for part of the programs: after a legal program that changes no vector and copies unused polynomials only,
`Slope` of a polynomial on a live vector is the derivative of its `Y`.  Missing: vectors that are changed after the
polynomial was used, for which it is false, and polynomials obtained by `Derivative`. -/
theorem C131_slope_partial (ops : List Op) (hl : Legal Mem.empty ops) (hc : CopiesUnused [] ops)
    (hne : ∀ v cs, Op.editVector v cs ∉ ops) {m : Mem} (he : exec Mem.empty ops = some m) {p : ℕ} {o : PolyHeap.Obj} {v : ℕ}
    {cs : List ℝ} (hp : m.obj p = some o) (ho : o.coefficients = some (.user v)) (hv : m.vec v = some cs) (x : ℝ) :
    (Op.y p x).run m = some (m, .num (evalY cs x)) ∧
    ∃ m1 d, (Op.slope p x).run m = some (m1, .num d) ∧ HasDerivAt (fun z => evalY cs z) d x := by
  obtain ⟨m', h', I, C⟩ := heap_exec ops (empty_inv _) hl hc
  rw [he] at h'
  cases h'
  have hd : m.deref o.coefficients = some cs := by rw [ho]; exact hv
  refine ⟨by simp only [Op.run, hp, hd], ?_⟩
  obtain ⟨m1, o1, a, hu, _, _, _, h4, _, h5⟩ := user_update I (C hne empty_content) hp ho hv
  refine ⟨m1, _, by simp only [Op.run, hp, hu, h5]; rfl, ?_⟩
  rw [h4]
  exact slope_deriv cs x

/-- C131: under the same conditions `Derivative` gives a polynomial whose `Y` is the derivative of the original. -/
theorem C131_derivative_partial (ops : List Op) (hl : Legal Mem.empty ops) (hc : CopiesUnused [] ops)
    (hne : ∀ v cs, Op.editVector v cs ∉ ops) {m : Mem} (he : exec Mem.empty ops = some m) {p : ℕ} {o : PolyHeap.Obj} {v : ℕ}
    {cs : List ℝ} (hp : m.obj p = some o) (ho : o.coefficients = some (.user v)) (hv : m.vec v = some cs) (x : ℝ) :
    ∃ m1 q d, (Op.derivative p).run m = some (m1, .done) ∧ (Op.y q x).run m1 = some (m1, .num d) ∧
      HasDerivAt (fun z => evalY cs z) d x := by
  obtain ⟨m', h', I, C⟩ := heap_exec ops (empty_inv _) hl hc
  rw [he] at h'
  cases h'
  obtain ⟨m1, o1, a, hu, h1, h2, h3, h4, _, _⟩ := user_update I (C hne empty_content) hp ho hv
  set m2 := m1.add ⟨some (.member p), [], none, false⟩ with hm2
  have hq : m2.obj m1.objects.length = some ⟨some (.member p), [], none, false⟩ := by
    rw [hm2, Mem.obj_add, if_pos rfl]
  have hp2 : m2.obj p = some o1 := by
    rw [hm2, Mem.obj_add, if_neg (lt_of_slot h1).ne, h1]
  refine ⟨m2, m1.objects.length, evalY o1.cache x, by simp only [Op.run, hp, hu, h1, h2, h3]; rfl, ?_, ?_⟩
  · simp only [Op.run, hq, Mem.deref, hp2, Option.map_some]
  · rw [h4]
    exact slope_deriv cs x

/-- C131: under the same conditions `X` is that of a new polynomial with the coefficients of the vector, an exception if
there are none, and `Validate` accepts the polynomial. -/
theorem C131_solve_partial (ops : List Op) (hl : Legal Mem.empty ops) (hc : CopiesUnused [] ops)
    (hne : ∀ v cs, Op.editVector v cs ∉ ops) {m : Mem} (he : exec Mem.empty ops = some m) {p : ℕ} {o : PolyHeap.Obj} {v : ℕ}
    {cs : List ℝ} (hp : m.obj p = some o) (ho : o.coefficients = some (.user v)) (hv : m.vec v = some cs) (y : ℝ) (d : ℤ)
    (guess : ℝ) :
    (∃ m1, (Op.solveX p y d guess).run m = some (m1, match (Poly.Obj.solveX y d guess (Poly.Obj.new cs)).1 with
      | .val x => .num x
      | _ => .threw)) ∧
    ∃ m1, (Op.validate p).run m = some (m1, .flag true) := by
  obtain ⟨m', h', I, C⟩ := heap_exec ops (empty_inv _) hl hc
  rw [he] at h'
  cases h'
  obtain ⟨m1, o1, a, hu, h1, h2, h3, h4, h6, h5⟩ := user_update I (C hne empty_content) hp ho hv
  refine ⟨⟨m1, ?_⟩, m1, by simp only [Op.run, hp, ho, hu]⟩
  have hd : m1.deref o.coefficients = some cs := by
    have hdn : m.deref o.coefficients ≠ none := by rw [ho]; show m.vec v ≠ none; rw [hv]; simp
    obtain ⟨m2, b, hu2, H, _, _, _⟩ := update_facts I hp hdn
    rw [hu] at hu2
    cases hu2
    rw [ho]
    show m1.vec v = some cs
    unfold Mem.vec
    rw [H.vectors]
    exact hv
  simp only [Op.run, hp, hu, hd]
  cases cs with
  | nil => rfl
  | cons c cs =>
    simp only
    have e : (Poly.Obj.solveX y d guess (Poly.Obj.new (c :: cs))).1 =
        .val (Poly.Obj.newton ((c - y) :: cs) (derivCoefficients (c :: cs)) (1 / (10 : ℝ) ^ d) 100 guess (-999999)) := rfl
    rw [e]
    by_cases hd : 1 / (10 : ℝ) ^ d < 999999
    · rw [if_pos hd, h5, h4]
    · rw [if_neg hd, Poly.Obj.newton, if_neg (by rw [abs_of_neg (by norm_num)]; norm_num at hd ⊢; exact hd)]

/-- The hypotheses of the three theorems above are met by a polynomial on a fresh vector. -/
example (cs : List ℝ) (x z : ℝ) : ∃ m1 d, (Op.slope 0 x).run
    ⟨[some cs], [some ⟨some (.user 0), derivCoefficients cs, some 0, true⟩], [some (.member 0)]⟩ = some (m1, .num d) ∧
    HasDerivAt (fun z => evalY cs z) d x := by
  have hl : Legal Mem.empty (usedPolynomial cs z) := by
    have := legal_used cs z [] trivial
    simpa using this
  exact (C131_slope_partial (usedPolynomial cs z) hl (by simp [usedPolynomial, CopiesUnused, Op.copies])
    (by simp [usedPolynomial]) (used_exec cs z) (p := 0) (v := 0) rfl rfl rfl x).2

/-- C131 fails when the caller changes the vector: `Y` follows, `Slope` stays that of the old coefficients. -/
theorem C131_stale (cs ds : List ℝ) (x z : ℝ) :
    ∃ m, exec Mem.empty (usedPolynomial cs x ++ [.editVector 0 ds]) = some m ∧
      (Op.y 0 z).run m = some (m, .num (evalY ds z)) ∧
      (Op.slope 0 z).run m = some (m, .num (evalY (derivCoefficients cs) z)) :=
  ⟨_, rfl, rfl, rfl⟩

/-- C131 fails: the slope of `2 x` is reported as 1. -/
theorem C131_fails : ∃ ops m, Legal Mem.empty ops ∧ CopiesUnused [] ops ∧ exec Mem.empty ops = some m ∧
    (∀ x, (Op.y 0 x).run m = some (m, .num (2 * x))) ∧ (∀ x, (Op.slope 0 x).run m = some (m, .num 1)) := by
  obtain ⟨m, h, _⟩ := C131_stale [0, 1] [0, 2] 0 0
  refine ⟨usedPolynomial [0, 1] 0 ++ [.editVector 0 [0, 2]], m, ?_, ?_, h, ?_, ?_⟩
  · refine legal_used _ _ _ (legal_last ?_)
    simp [Op.Live, Mem.vec]
  · simp [usedPolynomial, CopiesUnused, Op.copies]
  · intro x
    have e : some m = _ := h.symm
    cases e
    show some (_, Ans.num (evalY [0, 2] x)) = _
    congr 3
    simp [evalY, yLoop]
  · intro x
    have e : some m = _ := h.symm
    cases e
    show some (_, Ans.num (evalY (derivCoefficients [0, 1]) x)) = _
    congr 3
    simp [evalY, yLoop, derivCoefficients, derivLoop]

/-- C131 fails for derivatives: a polynomial obtained by `Derivative` changes with its parent, and is left with a pointer
into freed memory when the parent is destroyed. -/
theorem C131_derivative_fails (cs ds : List ℝ) (x z : ℝ) :
    (∃ m, exec Mem.empty [.newVector cs, .newVector ds, .constructWith (.user 0), .derivative 0,
        .setCoefficients 0 (.user 1), .slope 0 x] = some m ∧
      (Op.y 1 z).run m = some (m, .num (evalY (derivCoefficients ds) z))) ∧
    exec Mem.empty [.newVector cs, .constructWith (.user 0), .derivative 0, .destroy 0, .y 1 z] = none :=
  ⟨⟨_, rfl, rfl⟩, rfl⟩

/-- C131 fails: a polynomial set to the coefficients of its own derivative throws when asked for a slope, if there are at
least three coefficients. -/
theorem C131_alias_throws (a b c : ℝ) (cs : List ℝ) (x z : ℝ) :
    ∃ m m1, exec Mem.empty (usedPolynomial (a :: b :: c :: cs) x ++ [.setCoefficients 0 (.member 0)]) = some m ∧
      (Op.slope 0 z).run m = some (m1, .threw) :=
  ⟨_, _, rfl, rfl⟩

/-! ## C132 -/

/-- Assignments go to polynomials that have not been used. -/
def AssignsUnused (past : List Op) : List Op → Prop
  | [] => True
  | op :: ops => (∀ q p, op = .assign q p → ∀ o ∈ past, o.uses ≠ some q) ∧ AssignsUnused (op :: past) ops

theorem leak_exec {m : Mem} {past : List Op} (ops : List Op) (I : Inv m (Used past)) (N : NoLeak m) (hl : Legal m ops)
    (hc : CopiesUnused past ops) (ha : AssignsUnused past ops) : ∃ m1, exec m ops = some m1 ∧ NoLeak m1 := by
  induction ops generalizing m past with
  | nil => exact ⟨m, rfl, N⟩
  | cons op ops ih =>
    obtain ⟨live, rest⟩ := hl
    obtain ⟨c1, c2⟩ := hc
    obtain ⟨a1, a2⟩ := ha
    obtain ⟨m1, a, hr, I1, N1, _⟩ := step I op live (fun p hp => by
      rintro ⟨o, ho, hu⟩
      exact c1 p hp o ho hu)
    have I1 : Inv m1 (Used (op :: past)) := I1.mono (by
      rintro q (⟨o, ho, hu⟩ | hu)
      · exact ⟨o, List.mem_cons_of_mem _ ho, hu⟩
      · exact ⟨op, List.mem_cons_self, hu⟩)
    obtain ⟨m2, he, N2⟩ := ih I1 (N1 (fun q p hq => by
      rintro ⟨o, ho, hu⟩
      exact a1 q p hq o ho hu) N) (rest m1 a hr) c2 a2
    exact ⟨m2, by rw [exec, hr]; exact he, N2⟩

/-- C132 for part of the programs: when all polynomials are destroyed nothing is left on the heap, if unused polynomials
only are copied, and assigned to.  Missing: assignment to a polynomial that was used, for which it is false. -/
theorem C132_freed_partial (ops : List Op) (hl : Legal Mem.empty ops) (hc : CopiesUnused [] ops)
    (ha : AssignsUnused [] ops) {m : Mem} (he : exec Mem.empty ops = some m) (hd : ∀ p, m.obj p = none) :
    ∀ a, m.cell a = none := by
  obtain ⟨m1, h, N⟩ := leak_exec ops (empty_inv _) (by intro a ptr h; simp [Mem.cell, Mem.empty] at h) hl hc ha
  rw [he] at h
  cases h
  intro a
  cases hx : m.cell a with
  | none => rfl
  | some ptr =>
    obtain ⟨p, o, hp, _⟩ := N a ptr hx
    rw [hd p] at hp
    cases hp

/-- The hypotheses are met by the program of C130. -/
example (cs : List ℝ) (x : ℝ) : ∃ m, exec Mem.empty [.newVector cs, .constructWith (.user 0), .copy 0, .slope 0 x,
    .slope 1 x, .destroy 0, .slope 1 x, .destroy 1] = some m ∧ (∀ p, m.obj p = none) ∧ m.heap.length = 2 ∧
    ∀ a, m.cell a = none := by
  refine ⟨_, rfl, ?_, rfl, C132_freed_partial _ (exPrograms cs x) (by simp [CopiesUnused, Op.copies, Op.uses])
    (by simp [AssignsUnused]) rfl ?_⟩
  all_goals
    intro p
    match p with
    | 0 => rfl
    | 1 => rfl
    | n + 2 => rfl

/-- C132 fails: assigning to a polynomial that was used leaves its derivative behind, whatever the coefficients. -/
theorem C132_leak (cs : List ℝ) (x : ℝ) :
    let ops := usedPolynomial cs x ++ [.constructWith (.user 0), .assign 0 1, .destroy 0, .destroy 1]
    Legal Mem.empty ops ∧ CopiesUnused [] ops ∧
    ∃ m, exec Mem.empty ops = some m ∧ (∀ p, m.obj p = none) ∧ m.cell 0 ≠ none := by
  refine ⟨legal_used cs x _ (legal_cons trivial rfl (legal_cons ?_ rfl (legal_cons ?_ rfl (legal_last ?_)))), ?_, _, rfl, ?_, ?_⟩
  · simp [Op.Live, Mem.obj, Mem.add]
  · simp [Op.Live, Mem.obj, Mem.add, Mem.put]
  · simp [Op.Live, Mem.obj, Mem.add, Mem.put]
  · simp [usedPolynomial, CopiesUnused, Op.copies, Op.uses]
  · intro p
    match p with
    | 0 => rfl
    | 1 => rfl
    | n + 2 => rfl
  · show some (VecPtr.member 0) ≠ none
    simp

end Verif.Props
