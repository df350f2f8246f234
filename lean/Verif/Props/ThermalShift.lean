import Verif.Props.CableElongation

/-!
# Temperature shifts the elongation of a cable (C149, C150)
-/

set_option linter.unusedSectionVars false

namespace Verif.Props
open Verif.ElongationModel Verif.ComponentModel

/-- A model that has been given a cable, a stretch state and a state, whatever happened to it before. -/
noncomputable def givenCable (m : ElongationModel) (k : Cable) (ss : CableStretchState) (s : CableState) :
    ElongationModel := ((m.setCable (some k)).setStretch ss).setState s

theorem givenCable_good (m : ElongationModel) (k : Cable) (ss : CableStretchState) (s : CableState) :
    Good k (givenCable m k ss s) := by
  refine good_flags_false ?_ rfl rfl
  have := attach_att k m k rfl
  exact this

/-- What the caller of an elongation model sees. -/
def seen {S A : Type} : Outcome S A → Res A
  | .ok _ a => .val a
  | .throws _ => .throws
  | .ub => .ub

/-- What the caller sees of load and slope, as a function of the inputs. -/
theorem seen_ask (m : ElongationModel) (k : Cable) (ss : CableStretchState) (s : CableState)
    (body : CableComponent → PolynomialType → Regions → ℝ → ℝ → ℝ) (t : ElongationPart) (x : ℝ) :
    seen ((givenCable m k ss s).askPart body t x) =
      match knownOf k s ss with
      | .val o => .val (partOf body k s o x t)
      | _ => .ub := by
  rcases (givenCable_good m k ss s).ask rfl body t x with ⟨o, m', a, b, -⟩ | ⟨a, b⟩
  · rw [b]
    change knownOf k s ss = _ at a
    rw [a]; rfl
  · rw [b]
    change knownOf k s ss = _ at a
    rw [a]; rfl

theorem seen_strain (m : ElongationModel) (k : Cable) (ss : CableStretchState) (s : CableState)
    (t : ElongationPart) (y : ℝ) :
    seen ((givenCable m k ss s).strain t y) =
      match knownOf k s ss with
      | .val o =>
        match strainOf k s o y t with
        | .val x => .val x
        | _ => .ub
      | _ => .ub := by
  rcases (givenCable_good m k ss s).strain rfl t y with ⟨o, x, m', a, b, c, -⟩ | ⟨⟨o, a, b⟩, c⟩ | ⟨a, c⟩
  · rw [c]
    change knownOf k s ss = _ at a
    change strainOf k s o y t = _ at b
    rw [a]; simp only; rw [b]; rfl
  · rw [c]
    change knownOf k s ss = _ at a
    change strainOf k s o y t = _ at b
    rw [a]; simp only; rw [b]; rfl
  · rw [c]
    change knownOf k s ss = _ at a
    rw [a]; rfl

/-! ## Only differences of temperature matter -/

/-- The cable with its properties given for a reference temperature that is higher by `d`. -/
def hotterReference (k : Cable) (d : ℝ) : Cable := { k with temperatureProperties := k.temperatureProperties + d }

theorem thermal_diff (c : CableComponent) (t T d : ℝ) : c.thermal (t + d) (T + d) = c.thermal t T := by
  unfold CableComponent.thermal; ring

theorem spec_hotter (c : CableComponent) (t T d : ℝ) (τ : PolynomialType) (ss : CableStretchState) :
    spec c (t + d) ⟨T + d, τ⟩ { ss with temperature := ss.temperature + d } = spec c t ⟨T, τ⟩ ss := by
  unfold spec stretchOf regionsOf updateStretch updateState
  simp only [thermal_diff]

theorem compRead_hotter (c : CableComponent) (t T d : ℝ) (τ : PolynomialType) (ss : CableStretchState) :
    compRead c (t + d) ⟨T + d, τ⟩ { ss with temperature := ss.temperature + d } = compRead c t ⟨T, τ⟩ ss := by
  unfold compRead
  rw [spec_hotter]

theorem readOf_hotter (k : Cable) (T d : ℝ) (τ : PolynomialType) (ss : CableStretchState) (l : ℝ × ℝ) :
    readOf (hotterReference k d) ⟨T + d, τ⟩ { ss with temperature := ss.temperature + d } l = readOf k ⟨T, τ⟩ ss l := by
  unfold readOf
  have h1 := compRead_hotter k.core k.temperatureProperties T d τ { ss with load := l.1 }
  have h2 := compRead_hotter k.shell k.temperatureProperties T d τ { ss with load := l.2 }
  simp only [hotterReference] at h1 h2 ⊢
  rw [h1, h2]

theorem ansOf_temperature (body : CableComponent → PolynomialType → Regions → ℝ → ℝ → ℝ) (c : CableComponent)
    (T T' : ℝ) (τ : PolynomialType) (o : Option (ℝ × Regions)) (x : ℝ) :
    ansOf body c ⟨T, τ⟩ o x = ansOf body c ⟨T', τ⟩ o x := rfl

theorem loadsOf_hotter (k : Cable) (d : ℝ) (ss : CableStretchState) :
    loadsOf (hotterReference k d) { ss with temperature := ss.temperature + d } = loadsOf k ss := by
  unfold loadsOf
  have h := readOf_hotter k ss.temperature d ss.type ss (0, 0)
  simp only [CableStretchState.base]
  rw [h]
  rfl

theorem knownOf_hotter (k : Cable) (T d : ℝ) (τ : PolynomialType) (ss : CableStretchState) :
    knownOf (hotterReference k d) ⟨T + d, τ⟩ { ss with temperature := ss.temperature + d } = knownOf k ⟨T, τ⟩ ss := by
  unfold knownOf
  rw [loadsOf_hotter]
  cases loadsOf k ss with
  | val l => exact readOf_hotter k T d τ ss l
  | throws => rfl
  | ub => rfl

/-- C150: if the reference temperature of the cable, the temperature of its state and the temperature of its
stretch state are all raised by the same amount, every load, slope and strain is the same, whatever the
models were used for before. -/
theorem C150_only_differences (m m' : ElongationModel) (k : Cable) (ss : CableStretchState) (T d : ℝ)
    (τ : PolynomialType) (t : ElongationPart) (x : ℝ) :
    seen ((givenCable m' (hotterReference k d) { ss with temperature := ss.temperature + d } ⟨T + d, τ⟩).load t x) =
      seen ((givenCable m k ss ⟨T, τ⟩).load t x) ∧
    seen ((givenCable m' (hotterReference k d) { ss with temperature := ss.temperature + d } ⟨T + d, τ⟩).slope t x) =
      seen ((givenCable m k ss ⟨T, τ⟩).slope t x) ∧
    seen ((givenCable m' (hotterReference k d) { ss with temperature := ss.temperature + d } ⟨T + d, τ⟩).strain t x) =
      seen ((givenCable m k ss ⟨T, τ⟩).strain t x) := by
  have hp : ∀ (body : CableComponent → PolynomialType → Regions → ℝ → ℝ → ℝ) o,
      partOf body (hotterReference k d) ⟨T + d, τ⟩ o x t = partOf body k ⟨T, τ⟩ o x t := by
    intro body o; cases t <;> rfl
  have hst : ∀ o, strainOf (hotterReference k d) ⟨T + d, τ⟩ o x t = strainOf k ⟨T, τ⟩ o x t := by
    intro o; cases t <;> rfl
  refine ⟨?_, ?_, ?_⟩
  · unfold ElongationModel.load
    rw [seen_ask, seen_ask, knownOf_hotter]
    simp only [hp]
  · unfold ElongationModel.slope
    rw [seen_ask, seen_ask, knownOf_hotter]
    simp only [hp]
  · rw [seen_strain, seen_strain, knownOf_hotter]
    simp only [hst]

/-! ## Heating shifts the strains -/

/-- The region points moved by `d`. -/
def movedRegions (d : ℝ) (r : Regions) : Regions :=
  ⟨⟨r.unloaded.x + d, r.unloaded.y⟩, ⟨r.start.x + d, r.start.y⟩, ⟨r.stop.x + d, r.stop.y⟩⟩

/-- What a component knows, with the strains moved by `d`. -/
def movedRead (d : ℝ) : Option (ℝ × Regions) → Option (ℝ × Regions)
  | some (th, r) => some (th + d, movedRegions d r)
  | none => none

theorem loadLinear_moved (p : V2) (sl d x : ℝ) :
    CableComponent.loadLinear ⟨p.x + d, p.y⟩ sl (x + d) = CableComponent.loadLinear p sl x := by
  unfold CableComponent.loadLinear; ring

theorem load_moved (c : CableComponent) (τ : PolynomialType) (r : Regions) (th x d : ℝ) :
    c.load τ (movedRegions d r) (th + d) (x + d) = c.load τ r th x := by
  unfold CableComponent.load CableComponent.loadPolynomial
  simp only [movedRegions, add_lt_add_iff_right, add_le_add_iff_right, add_sub_add_right_eq_sub, loadLinear_moved]

theorem slope_moved (c : CableComponent) (τ : PolynomialType) (r : Regions) (th x d : ℝ) :
    c.slope τ (movedRegions d r) (th + d) (x + d) = c.slope τ r th x := by
  unfold CableComponent.slope CableComponent.slopePolynomial
  simp only [movedRegions, add_lt_add_iff_right, add_le_add_iff_right, add_sub_add_right_eq_sub]

theorem strain_moved (c : CableComponent) {τ : PolynomialType} (hτ : τ ≠ .null) (r : Regions) (th l d : ℝ) :
    c.strain τ (movedRegions d r) (th + d) l = c.strain τ r th l + d := by
  unfold CableComponent.strain CableComponent.strainLinear CableComponent.strainPolynomial
  simp only [movedRegions]
  split_ifs with h1 h2 h3 h4
  · ring
  · ring
  · cases τ with
    | null => exact absurd rfl hτ
    | creep => simp only [CableComponent.coefficients]; ring
    | loadStrain => simp only [CableComponent.coefficients]; ring
  · ring
  · exfalso
    push Not at h1
    by_cases h : l ≤ r.start.y
    · exact h2 ⟨h1, h⟩
    · push Not at h
      by_cases h' : l < r.stop.y
      · exact h3 ⟨h, h'⟩
      · exact h4 (not_lt.mp h')

theorem regions_moved (c : CableComponent) (cs : List ℝ) (th limit l d : ℝ) :
    c.regions cs (th + d) limit l = movedRegions d (c.regions cs th limit l) := by
  unfold CableComponent.regions CableComponent.strainLinear CableComponent.strainPolynomial movedRegions
  ext <;> simp only <;> ring

theorem thermal_shift (c : CableComponent) (t T T' : ℝ) :
    c.thermal t T' = c.thermal t T + c.expansion * (T' - T) := by
  unfold CableComponent.thermal; ring

theorem compRead_shift (c : CableComponent) (t T T' : ℝ) (τ : PolynomialType) (ss : CableStretchState) :
    compRead c t ⟨T', τ⟩ ss =
      match compRead c t ⟨T, τ⟩ ss with
      | .val o => .val (movedRead (c.expansion * (T' - T)) o)
      | .throws => .throws
      | .ub => .ub := by
  unfold compRead
  split_ifs with he
  · unfold spec
    rw [stretchOf_congr c t (s := ⟨T', τ⟩) (s' := ⟨T, τ⟩) ss (Or.inl rfl)]
    cases stretchOf c t ⟨T, τ⟩ ss with
    | throws => rfl
    | ub => rfl
    | val o =>
      cases o with
      | none => rfl
      | some l =>
        simp only [regionsOf, updateState]
        cases hc : c.coefficients τ with
        | none => rfl
        | some cs =>
          cases hl : c.limit τ with
          | none => rfl
          | some limit =>
            by_cases hcs : cs = []
            · simp only [hcs, if_true]
            · simp only [hcs, if_false]
              rw [thermal_shift c t T T', regions_moved]
              rfl
  · rfl

theorem compRead_type {c : CableComponent} {t : ℝ} {s : CableState} {ss : CableStretchState} {o}
    (he : c.Enabled) (h : compRead c t s ss = .val (some o)) : s.type ≠ .null := by
  intro hn
  unfold compRead at h
  rw [if_pos he] at h
  unfold spec regionsOf updateState at h
  rw [hn] at h
  simp only [CableComponent.coefficients] at h
  revert h
  cases stretchOf c t s ss with
  | throws => simp
  | ub => simp
  | val o => cases o <;> simp

/-- What both components know, with the strains moved by their own amounts. -/
def movedBoth (k : Cable) (dT : ℝ) (o : Option (ℝ × Regions) × Option (ℝ × Regions)) :
    Option (ℝ × Regions) × Option (ℝ × Regions) :=
  (movedRead (k.core.expansion * dT) o.1, movedRead (k.shell.expansion * dT) o.2)

theorem knownOf_shift (k : Cable) (T T' : ℝ) (τ : PolynomialType) (ss : CableStretchState) :
    knownOf k ⟨T', τ⟩ ss =
      match knownOf k ⟨T, τ⟩ ss with
      | .val o => .val (movedBoth k (T' - T) o)
      | .throws => .throws
      | .ub => .ub := by
  unfold knownOf
  cases loadsOf k ss with
  | throws => rfl
  | ub => rfl
  | val l =>
    simp only
    unfold readOf
    rw [compRead_shift k.core _ T T', compRead_shift k.shell _ T T']
    cases compRead k.core k.temperatureProperties ⟨T, τ⟩ { ss with load := l.1 } <;>
      cases compRead k.shell k.temperatureProperties ⟨T, τ⟩ { ss with load := l.2 } <;> rfl

theorem ansOf_load_moved (c : CableComponent) (s s' : CableState) (hs : s.type = s'.type)
    (o : Option (ℝ × Regions)) (x d : ℝ) :
    ansOf CableComponent.load c s' (movedRead d o) (x + d) = ansOf CableComponent.load c s o x := by
  unfold ansOf
  cases o with
  | none => rfl
  | some p => simp only [movedRead, load_moved, hs]

theorem ansOf_slope_moved (c : CableComponent) (s s' : CableState) (hs : s.type = s'.type)
    (o : Option (ℝ × Regions)) (x d : ℝ) :
    ansOf CableComponent.slope c s' (movedRead d o) (x + d) = ansOf CableComponent.slope c s o x := by
  unfold ansOf
  cases o with
  | none => rfl
  | some p => simp only [movedRead, slope_moved, hs]

/-- C149: heating a cable from `T` to `T'` shifts the load of each component along the strain by the
thermal expansion of that component: the load and the slope at a strain are those that the colder
component has at the strain less the expansion.  The permanent stretch is unaffected.  The whole cable
is shifted if both components expand alike. -/
theorem C149_load_shifts (m m' : ElongationModel) (k : Cable) (ss : CableStretchState) (T T' : ℝ)
    (τ : PolynomialType) (x d : ℝ) (t : ElongationPart)
    (hd : match t with
      | .core => d = k.core.expansion * (T' - T)
      | .shell => d = k.shell.expansion * (T' - T)
      | .combined => d = k.core.expansion * (T' - T) ∧ d = k.shell.expansion * (T' - T)) :
    seen ((givenCable m' k ss ⟨T', τ⟩).load t (x + d)) = seen ((givenCable m k ss ⟨T, τ⟩).load t x) ∧
    seen ((givenCable m' k ss ⟨T', τ⟩).slope t (x + d)) = seen ((givenCable m k ss ⟨T, τ⟩).slope t x) := by
  constructor
  · unfold ElongationModel.load
    rw [seen_ask, seen_ask, knownOf_shift k T T']
    cases knownOf k ⟨T, τ⟩ ss with
    | throws => rfl
    | ub => rfl
    | val o =>
      simp only [Res.val.injEq]
      cases t with
      | core => subst hd; exact ansOf_load_moved k.core ⟨T, τ⟩ ⟨T', τ⟩ rfl o.1 x _
      | shell => subst hd; exact ansOf_load_moved k.shell ⟨T, τ⟩ ⟨T', τ⟩ rfl o.2 x _
      | combined =>
        obtain ⟨h1, h2⟩ := hd
        have e1 := ansOf_load_moved k.core ⟨T, τ⟩ ⟨T', τ⟩ rfl o.1 x d
        have e2 := ansOf_load_moved k.shell ⟨T, τ⟩ ⟨T', τ⟩ rfl o.2 x d
        simp only [partOf, bothOf, movedBoth]
        rw [← h1, ← h2, e1, e2]
  · unfold ElongationModel.slope
    rw [seen_ask, seen_ask, knownOf_shift k T T']
    cases knownOf k ⟨T, τ⟩ ss with
    | throws => rfl
    | ub => rfl
    | val o =>
      simp only [Res.val.injEq]
      cases t with
      | core => subst hd; exact ansOf_slope_moved k.core ⟨T, τ⟩ ⟨T', τ⟩ rfl o.1 x _
      | shell => subst hd; exact ansOf_slope_moved k.shell ⟨T, τ⟩ ⟨T', τ⟩ rfl o.2 x _
      | combined =>
        obtain ⟨h1, h2⟩ := hd
        have e1 := ansOf_slope_moved k.core ⟨T, τ⟩ ⟨T', τ⟩ rfl o.1 x d
        have e2 := ansOf_slope_moved k.shell ⟨T, τ⟩ ⟨T', τ⟩ rfl o.2 x d
        simp only [partOf, bothOf, movedBoth]
        rw [← h1, ← h2, e1, e2]

/-- Without a polynomial to change to, an enabled component always knows its regions. -/
theorem compRead_some {c : CableComponent} {t : ℝ} {s : CableState} {ss : CableStretchState} {o}
    (he : c.Enabled) (hs : s.type = ss.type ∨ ss.load = 0) (h : compRead c t s ss = .val o) : o ≠ none := by
  rintro rfl
  unfold compRead at h
  rw [if_pos he] at h
  unfold spec at h
  rw [stretchOf_same hs] at h
  simp only at h
  cases hr : regionsOf c t s ss.load <;> rw [hr] at h <;> simp at h

/-- C149: and the strain of a component under a load grows by its thermal expansion.  (If the stretch has to be
converted to the other polynomial, that can fail; the result is then −999999, the sign of an error.) -/
theorem C149_strain_shifts (m m' : ElongationModel) (k : Cable) (ss : CableStretchState) (T T' : ℝ)
    (τ : PolynomialType) (y a : ℝ) (hτ : τ = ss.type ∨ ss.load = 0 ∨ a ≠ -999999) :
    (k.core.Enabled → seen ((givenCable m k ss ⟨T, τ⟩).strain .core y) = .val a →
      seen ((givenCable m' k ss ⟨T', τ⟩).strain .core y) = .val (a + k.core.expansion * (T' - T))) ∧
    (k.shell.Enabled → seen ((givenCable m k ss ⟨T, τ⟩).strain .shell y) = .val a →
      seen ((givenCable m' k ss ⟨T', τ⟩).strain .shell y) = .val (a + k.shell.expansion * (T' - T))) := by
  have hz : ∀ l, loadsOf k ss = .val l → ss.load = 0 → l = (0, 0) := by
    intro l hl h0
    unfold loadsOf at hl
    rw [if_pos h0] at hl
    cases hl; rfl
  constructor
  · intro he h
    rw [seen_strain] at h ⊢
    rw [knownOf_shift k T T']
    cases ho : knownOf k ⟨T, τ⟩ ss with
    | throws => rw [ho] at h; cases h
    | ub => rw [ho] at h; cases h
    | val o =>
      rw [ho] at h
      simp only [strainOf, Res.val.injEq] at h ⊢
      unfold knownOf at ho
      cases hl : loadsOf k ss with
      | throws => rw [hl] at ho; cases ho
      | ub => rw [hl] at ho; cases ho
      | val l =>
        rw [hl] at ho
        simp only at ho
        unfold readOf at ho
        revert ho
        cases h1 : compRead k.core k.temperatureProperties ⟨T, τ⟩ { ss with load := l.1 } with
        | throws => simp
        | ub => simp
        | val p =>
          cases compRead k.shell k.temperatureProperties ⟨T, τ⟩ { ss with load := l.2 } with
          | throws => simp
          | ub => simp
          | val q =>
            simp only [Res.val.injEq]
            rintro rfl
            cases p with
            | none =>
              rcases hτ with hτ | hτ | hτ
              · exact absurd rfl (compRead_some he (Or.inl hτ) h1)
              · exact absurd rfl (compRead_some he (by right; rw [hz l hl hτ]) h1)
              · simp only [ansOf, if_pos he] at h
                exact absurd h.symm hτ
            | some p =>
              have hty := compRead_type he h1
              simp only [ansOf, if_pos he, movedBoth, movedRead] at h ⊢
              rw [strain_moved k.core hty, h]
  · intro he h
    rw [seen_strain] at h ⊢
    rw [knownOf_shift k T T']
    cases ho : knownOf k ⟨T, τ⟩ ss with
    | throws => rw [ho] at h; cases h
    | ub => rw [ho] at h; cases h
    | val o =>
      rw [ho] at h
      simp only [strainOf, Res.val.injEq] at h ⊢
      unfold knownOf at ho
      cases hl : loadsOf k ss with
      | throws => rw [hl] at ho; cases ho
      | ub => rw [hl] at ho; cases ho
      | val l =>
        rw [hl] at ho
        simp only at ho
        unfold readOf at ho
        revert ho
        cases compRead k.core k.temperatureProperties ⟨T, τ⟩ { ss with load := l.1 } with
        | throws => simp
        | ub => simp
        | val p =>
          cases h1 : compRead k.shell k.temperatureProperties ⟨T, τ⟩ { ss with load := l.2 } with
          | throws => simp
          | ub => simp
          | val q =>
            simp only [Res.val.injEq]
            rintro rfl
            cases q with
            | none =>
              rcases hτ with hτ | hτ | hτ
              · exact absurd rfl (compRead_some he (Or.inl hτ) h1)
              · exact absurd rfl (compRead_some he (by right; rw [hz l hl hτ]) h1)
              · simp only [ansOf, if_pos he] at h
                exact absurd h.symm hτ
            | some q =>
              have hty := compRead_type he h1
              simp only [ansOf, if_pos he, movedBoth, movedRead] at h ⊢
              rw [strain_moved k.shell hty, h]

/-! ## The strain of the whole cable -/

/-- A point moved by `d`. -/
def movedPoint (d : ℝ) (p : V2) : V2 := ⟨p.x + d, p.y⟩

/-- Two searches that differ by a shift of the strains, except for the strain before the first pass. -/
structure SameSearch (d : ℝ) (s s' : StrainSearch) : Prop where
  left : s'.left = movedPoint d s.left
  right : s'.right = movedPoint d s.right
  y : s'.current.y = s.current.y
  x : s'.current.x = s.current.x + d ∨ s.current.x = -999999
  iter : s'.iter = s.iter

theorem SameSearch.step {d load : ℝ} {f f' : ℝ → ℝ} (hf : ∀ x, f' (x + d) = f x) {s s' : StrainSearch}
    (h : SameSearch d s s') : SameSearch d (s.step f load) (s'.step f' load) := by
  have hx : s'.left.x + (load - s'.left.y) / ((s'.right.y - s'.left.y) / (s'.right.x - s'.left.x)) =
      s.left.x + (load - s.left.y) / ((s.right.y - s.left.y) / (s.right.x - s.left.x)) + d := by
    rw [h.left, h.right]
    simp only [movedPoint, add_sub_add_right_eq_sub]
    ring
  unfold StrainSearch.step
  simp only
  rw [hx, hf]
  generalize s.left.x + (load - s.left.y) / ((s.right.y - s.left.y) / (s.right.x - s.left.x)) = x
  have hl : s'.left.x = s.left.x + d := by rw [h.left]; rfl
  have hr : s'.right.x = s.right.x + d := by rw [h.right]; rfl
  simp only [hl, hr, add_lt_add_iff_right, add_le_add_iff_right]
  split_ifs
  · exact ⟨rfl, h.left, rfl, Or.inl rfl, by simp [h.iter]⟩
  · exact ⟨rfl, h.right, rfl, Or.inl rfl, by simp [h.iter]⟩
  · exact ⟨h.left, rfl, rfl, Or.inl rfl, by simp [h.iter]⟩
  · exact ⟨h.left, h.right, rfl, Or.inl rfl, by simp [h.iter]⟩
  · exact ⟨h.right, rfl, rfl, Or.inl rfl, by simp [h.iter]⟩
  · exact ⟨h.left, h.right, rfl, Or.inl rfl, by simp [h.iter]⟩

theorem SameSearch.loop {d load : ℝ} {f f' : ℝ → ℝ} (hf : ∀ x, f' (x + d) = f x) (n : ℕ) :
    ∀ {s s' : StrainSearch}, SameSearch d s s' → SameSearch d (strainLoop f load n s) (strainLoop f' load n s') := by
  induction n with
  | zero => intro s s' h; exact h
  | succ n ih =>
    intro s s' h
    rw [strainLoop, strainLoop, h.y]
    split_ifs
    · exact ih (h.step hf)
    · exact h

theorem findRegion_moved (d load : ℝ) (r : List V2) :
    findRegion load (r.map (movedPoint d)) =
      (findRegion load r).map fun p => (movedPoint d p.1, movedPoint d p.2) := by
  induction r with
  | nil => rfl
  | cons p r ih =>
    cases r with
    | nil => rfl
    | cons q r =>
      simp only [List.map_cons, findRegion] at ih ⊢
      rw [ih]
      have e1 : (movedPoint d p).y = p.y := rfl
      have e2 : (movedPoint d q).y = q.y := rfl
      rw [e1, e2]
      by_cases h : p.y ≤ load ∧ load ≤ q.y
      · rw [if_pos h, if_pos h]; rfl
      · rw [if_neg h, if_neg h]

theorem strainCombined_moved {d load : ℝ} {f f' : ℝ → ℝ} (hf : ∀ x, f' (x + d) = f x) (r : List V2) {a : ℝ}
    (ha : a ≠ -999999) (h : strainCombined f r load = .val a) :
    strainCombined f' (r.map (movedPoint d)) load = .val (a + d) := by
  have core : ∀ l q : V2,
      (if (strainLoop f load 99 ⟨l, q, ⟨-999999, -999999⟩, 1⟩).iter < 100 then
        (strainLoop f load 99 ⟨l, q, ⟨-999999, -999999⟩, 1⟩).current.x else -999999) = a →
      (if (strainLoop f' load 99 ⟨movedPoint d l, movedPoint d q, ⟨-999999, -999999⟩, 1⟩).iter < 100 then
        (strainLoop f' load 99 ⟨movedPoint d l, movedPoint d q, ⟨-999999, -999999⟩, 1⟩).current.x else -999999) =
        a + d := by
    intro l q
    have S : SameSearch d (strainLoop f load 99 ⟨l, q, ⟨-999999, -999999⟩, 1⟩)
        (strainLoop f' load 99 ⟨movedPoint d l, movedPoint d q, ⟨-999999, -999999⟩, 1⟩) :=
      SameSearch.loop hf 99 ⟨rfl, rfl, rfl, Or.inr rfl, rfl⟩
    rw [S.iter]
    intro h
    split_ifs at h ⊢ with hi
    · rcases S.x with e | e
      · rw [e, h]
      · exact absurd (h.symm.trans e) ha
    · exact absurd h.symm ha
  unfold strainCombined strainStart at h ⊢
  rw [List.head?_map, List.getLast?_map, findRegion_moved]
  cases h1 : r.head? with
  | none => rw [h1] at h; cases h
  | some mn =>
    cases h2 : r.getLast? with
    | none => rw [h1, h2] at h; cases h
    | some mx =>
      rw [h1, h2] at h
      simp only [Option.map_some] at h ⊢
      have e1 : (movedPoint d mn).y = mn.y := rfl
      have e2 : (movedPoint d mx).y = mx.y := rfl
      rw [e1, e2]
      by_cases c1 : load ≤ mn.y
      · simp only [if_pos c1, Res.val.injEq] at h ⊢
        rw [← h]; rfl
      · simp only [if_neg c1] at h ⊢
        by_cases c2 : mx.y ≤ load
        · simp only [if_pos c2, Res.val.injEq] at h ⊢
          have e3 : (⟨(movedPoint d mx).x + 0.0005, f' ((movedPoint d mx).x + 0.0005)⟩ : V2) =
              movedPoint d ⟨mx.x + 0.0005, f (mx.x + 0.0005)⟩ := by
            have e : (movedPoint d mx).x + 0.0005 = mx.x + 0.0005 + d := by simp only [movedPoint]; ring
            rw [e, hf]; rfl
          rw [e3]
          exact core _ _ h
        · simp only [if_neg c2] at h ⊢
          cases h3 : findRegion load r with
          | none => rw [h3] at h; cases h
          | some p =>
            rw [h3] at h
            simp only [Option.map_some, Res.val.injEq] at h ⊢
            exact core _ _ h

theorem strainsOf_moved {c : CableComponent} {o : Option (ℝ × Regions)} (d : ℝ) (ho : c.Enabled → o ≠ none) :
    strainsOf c (movedRead d o) = (strainsOf c o).map (· + d) := by
  unfold strainsOf
  split_ifs with he
  · cases o with
    | none => exact absurd rfl (ho he)
    | some p => rfl
  · rfl

theorem pointsOf_moved {k : Cable} {T T' : ℝ} {τ : PolynomialType} {o : Option (ℝ × Regions) × Option (ℝ × Regions)}
    (d : ℝ) (h1 : k.core.Enabled → o.1 ≠ none) (h2 : k.shell.Enabled → o.2 ≠ none) :
    pointsOf k ⟨T', τ⟩ (movedRead d o.1, movedRead d o.2) = (pointsOf k ⟨T, τ⟩ o).map (movedPoint d) := by
  unfold pointsOf
  simp only
  rw [strainsOf_moved d h1, strainsOf_moved d h2, ← List.map_append,
    ← List.map_insertionSort (r := (· ≤ ·)) (s := (· ≤ ·)) (fun x : ℝ => x + d) _ (by intros; simp),
    List.map_map, List.map_map]
  refine List.map_congr_left fun x _ => ?_
  simp only [Function.comp, movedPoint, bothOf]
  rw [ansOf_load_moved k.core ⟨T, τ⟩ ⟨T', τ⟩ rfl, ansOf_load_moved k.shell ⟨T, τ⟩ ⟨T', τ⟩ rfl]

/-- C149: the strain of the whole cable under a load grows by the thermal expansion too, if both components
expand alike.  (A result of −999999 is the sign of an error, not a strain.) -/
theorem C149_strain_combined (m m' : ElongationModel) (k : Cable) (ss : CableStretchState) (T T' : ℝ)
    (τ : PolynomialType) (hτ : τ = ss.type ∨ ss.load = 0) (hk : k.core.expansion = k.shell.expansion) (y a : ℝ)
    (ha : a ≠ -999999) (h : seen ((givenCable m k ss ⟨T, τ⟩).strain .combined y) = .val a) :
    seen ((givenCable m' k ss ⟨T', τ⟩).strain .combined y) = .val (a + k.core.expansion * (T' - T)) := by
  have hz : ∀ l, loadsOf k ss = .val l → ss.load = 0 → l = (0, 0) := by
    intro l hl h0
    unfold loadsOf at hl
    rw [if_pos h0] at hl
    cases hl; rfl
  rw [seen_strain] at h ⊢
  rw [knownOf_shift k T T']
  cases ho : knownOf k ⟨T, τ⟩ ss with
  | throws => rw [ho] at h; cases h
  | ub => rw [ho] at h; cases h
  | val o =>
    rw [ho] at h
    simp only [strainOf] at h ⊢
    have hn : (k.core.Enabled → o.1 ≠ none) ∧ (k.shell.Enabled → o.2 ≠ none) := by
      unfold knownOf at ho
      cases hl : loadsOf k ss with
      | throws => rw [hl] at ho; cases ho
      | ub => rw [hl] at ho; cases ho
      | val l =>
        rw [hl] at ho
        simp only at ho
        unfold readOf at ho
        revert ho
        cases h1 : compRead k.core k.temperatureProperties ⟨T, τ⟩ { ss with load := l.1 } with
        | throws => simp
        | ub => simp
        | val p =>
          cases h2 : compRead k.shell k.temperatureProperties ⟨T, τ⟩ { ss with load := l.2 } with
          | throws => simp
          | ub => simp
          | val q =>
            simp only [Res.val.injEq]
            rintro rfl
            constructor <;> intro he
            · exact compRead_some he (by
                rcases hτ with hτ | hτ
                · exact Or.inl hτ
                · right; rw [hz l hl hτ]) h1
            · exact compRead_some he (by
                rcases hτ with hτ | hτ
                · exact Or.inl hτ
                · right; rw [hz l hl hτ]) h2
    cases hs : strainCombined (bothOf CableComponent.load k ⟨T, τ⟩ o) (pointsOf k ⟨T, τ⟩ o) y with
    | throws => rw [hs] at h; cases h
    | ub => rw [hs] at h; cases h
    | val x =>
      rw [hs] at h
      simp only [Res.val.injEq] at h
      subst h
      have key := strainCombined_moved (d := k.core.expansion * (T' - T))
        (f' := bothOf CableComponent.load k ⟨T', τ⟩ (movedBoth k (T' - T) o)) (fun x => by
          simp only [bothOf, movedBoth, ← hk]
          rw [ansOf_load_moved k.core ⟨T, τ⟩ ⟨T', τ⟩ rfl, ansOf_load_moved k.shell ⟨T, τ⟩ ⟨T', τ⟩ rfl])
        _ ha hs
      have hp := pointsOf_moved (k := k) (T := T) (T' := T') (τ := τ) (o := o) (k.core.expansion * (T' - T)) hn.1 hn.2
      have hm : movedBoth k (T' - T) o =
          (movedRead (k.core.expansion * (T' - T)) o.1, movedRead (k.core.expansion * (T' - T)) o.2) := by
        unfold movedBoth; rw [← hk]
      rw [← hp, ← hm] at key
      rw [key]

/-! ## A cable that expands -/

/-- A component that expands. -/
noncomputable def exExpanding : CableComponent := { exComponent 1 1 with expansion := 2 }

/-- A cable of two of them. -/
noncomputable def exExpandingCable : Cable := { exCable with core := exExpanding, shell := exExpanding }

theorem exExpanding_enabled : exExpanding.Enabled := exEnabled

theorem exExpanding_read : compRead exExpanding 0 ⟨0, .loadStrain⟩ ⟨0, .loadStrain, 0⟩ =
    .val (some (0, exPoints 0)) := by
  have h : spec exExpanding 0 ⟨0, .loadStrain⟩ ⟨0, .loadStrain, 0⟩ = spec (exComponent 1 1) 0 ⟨0, .loadStrain⟩ ⟨0, .loadStrain, 0⟩ := by
    have h3 : exExpanding.thermal 0 0 = 0 := by unfold CableComponent.thermal; ring
    have h4 : (exComponent 1 1).thermal 0 0 = 0 := by unfold CableComponent.thermal; ring
    unfold spec
    rw [stretchOf_same (Or.inl rfl), stretchOf_same (Or.inl rfl)]
    simp only
    rw [regionsOf_eq (c := exExpanding) (cs := [0, 1, 0, 0, 0]) (limit := 100) rfl (by simp) rfl,
      regionsOf_eq (c := exComponent 1 1) (cs := [0, 1, 0, 0, 0]) (limit := 100) rfl (by simp) rfl]
    simp only [h3, h4]
    rfl
  have := exRead 0
  unfold compRead at this ⊢
  rw [if_pos exEnabled] at this
  rw [if_pos exExpanding_enabled, h]
  exact this

theorem exExpanding_known : knownOf exExpandingCable ⟨0, .loadStrain⟩ ⟨0, .loadStrain, 0⟩ =
    .val (some (0, exPoints 0), some (0, exPoints 0)) := by
  unfold knownOf loadsOf readOf
  rw [if_pos rfl]
  have h : compRead exExpanding 0 ⟨0, .loadStrain⟩ { (⟨0, .loadStrain, 0⟩ : CableStretchState) with load := 0 } =
    .val (some (0, exPoints 0)) := exExpanding_read
  simp only [exExpandingCable, exCable]
  rw [h]

/-- Ten degrees hotter, the cable of these components carries at a strain of 25 what it carried at 5. -/
example (m : ElongationModel) :
    seen ((givenCable m exExpandingCable ⟨0, .loadStrain, 0⟩ ⟨10, .loadStrain⟩).load .combined 25) = .val 10 := by
  have h := (C149_load_shifts m m exExpandingCable ⟨0, .loadStrain, 0⟩ 0 10 .loadStrain 5 20 .combined
    ⟨by norm_num [exExpandingCable, exExpanding], by norm_num [exExpandingCable, exExpanding]⟩).1
  rw [show (5 : ℝ) + 20 = 25 by norm_num] at h
  rw [h]
  unfold ElongationModel.load
  rw [seen_ask, exExpanding_known]
  have ha : exExpandingCable.core.Enabled := exExpanding_enabled
  have hb : exExpandingCable.shell.Enabled := exExpanding_enabled
  simp only [partOf, bothOf, ansOf, if_pos ha, if_pos hb]
  have hc : exExpandingCable.core = exExpanding := rfl
  have hd : exExpandingCable.shell = exExpanding := rfl
  rw [hc, hd]
  have e : exExpanding.load .loadStrain (exPoints 0) 0 5 = 5 := by
    rw [show exExpanding.load .loadStrain (exPoints 0) 0 5 = (exComponent 1 1).load .loadStrain (exPoints 0) 0 5 from rfl, exLoad]
    norm_num
  rw [e]; norm_num

/-- And its unloaded length has grown by the expansion. -/
example (m : ElongationModel) :
    seen ((givenCable m exExpandingCable ⟨0, .loadStrain, 0⟩ ⟨10, .loadStrain⟩).strain .core 0) = .val 20 := by
  have h := (C149_strain_shifts m m exExpandingCable ⟨0, .loadStrain, 0⟩ 0 10 .loadStrain 0 0 (Or.inl rfl)).1
    exExpanding_enabled (by
      rw [seen_strain, exExpanding_known]
      have ha : exExpandingCable.core.Enabled := exExpanding_enabled
      simp only [strainOf, ansOf, if_pos ha]
      have hc : exExpandingCable.core = exExpanding := rfl
      rw [hc]
      norm_num [CableComponent.strain, exPoints, CableComponent.strainLinear])
  rw [h]
  norm_num [exExpandingCable, exExpanding]

end Verif.Props
