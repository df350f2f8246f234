import Verif.NotANumber
import Verif.AlignmentLemmas
import Verif.LineInvariant
import Mathlib.Tactic.NormNum
import Mathlib.Tactic.Linarith

/-!
# Property theorems: numbers that are not numbers
-/

set_option linter.unusedSectionVars false

namespace Verif.Props

open Verif Verif.NotANumber

section Order
variable {K : Type} [LinearOrder K]

theorem nan_lt (a : Dbl K) : NotANumber.lt none a = false := by cases a <;> rfl

theorem lt_nan (a : Dbl K) : NotANumber.lt a none = false := by cases a <;> rfl

theorem nan_le (a : Dbl K) : NotANumber.le none a = false := by cases a <;> rfl

theorem le_nan (a : Dbl K) : NotANumber.le a none = false := by cases a <;> rfl

theorem nan_same (a : Dbl K) : NotANumber.same none a = false := by cases a <;> rfl

theorem same_nan (a : Dbl K) : NotANumber.same a none = false := by cases a <;> rfl

/-- The search walks over everything when it looks for NaN. -/
theorem searchPos_nan {α : Type} (key : α → Dbl K) (l : List α) :
    NotANumber.searchPos key none l = some l.length := by
  induction l with
  | nil => rfl
  | cons q qs ih =>
    show (if NotANumber.lt none (key q) then some 0 else if NotANumber.same none (key q) then none
      else (NotANumber.searchPos key none qs).map (· + 1)) = _
    rw [nan_lt, nan_same, ih]; rfl

/-- The comparable keys of a list, in order. -/
def comparable {α : Type} (key : α → Dbl K) (l : List α) : List K := l.filterMap key

/-- **C169** (what happens instead).  A point whose station is NaN is accepted by every alignment: it goes to the end,
however many such points are there already. -/
theorem C169_point_accepted (points : List (AlignmentPoint (Dbl K))) (p : AlignmentPoint (Dbl K))
    (h : p.station = none) :
    NotANumber.Alignment.addPoint points p = (points ++ [p], (points.length : Int)) := by
  unfold NotANumber.Alignment.addPoint
  rw [h, searchPos_nan]
  show (points.insertIdx points.length p, ((points.length + 1 : ℕ) : Int) - 1) = _
  rw [List.insertIdx_length_self]
  congr 1
  push_cast
  ring

/-- **C169** (what happens instead).  With NaN as its first or last station, an alignment has no stations at all: every
station is refused. -/
theorem C169_no_stations (points : List (AlignmentPoint (Dbl K))) (f b : AlignmentPoint (Dbl K))
    (hf : points.head? = some f) (hb : points.getLast? = some b) (h : f.station = none ∨ b.station = none)
    (s : Dbl K) : NotANumber.Alignment.isValidStation points s = .val false := by
  unfold NotANumber.Alignment.isValidStation
  rw [hf, hb]
  show Res.val (NotANumber.le f.station s && NotANumber.le s b.station) = _
  rcases h with h | h
  · rw [h, nan_le]; rfl
  · rw [h, le_nan, Bool.and_false]

/-- The position found for a number separates the comparable keys. -/
theorem searchPos_number {α : Type} (key : α → Dbl K) (x : K) (l : List α)
    (hs : (comparable key l).Pairwise (· < ·)) :
    match NotANumber.searchPos key (some x) l with
    | none => x ∈ comparable key l
    | some i => i ≤ l.length ∧ (∀ y ∈ comparable key (l.take i), y < x) ∧ ∀ y ∈ comparable key (l.drop i), x < y := by
  induction l with
  | nil =>
    refine ⟨le_refl _, ?_, ?_⟩
    · intro y hy; exact absurd hy (by simp [comparable])
    · intro y hy; exact absurd hy (by simp [comparable])
  | cons q qs ih =>
    have e : NotANumber.searchPos key (some x) (q :: qs) = (if NotANumber.lt (some x) (key q) then some 0
      else if NotANumber.same (some x) (key q) then none
      else (NotANumber.searchPos key (some x) qs).map (· + 1)) := rfl
    cases hk : key q with
    | none =>
      rw [e, hk, lt_nan, same_nan]
      have hc : comparable key (q :: qs) = comparable key qs := by simp [comparable, hk]
      rw [hc] at hs
      have := ih hs
      rw [if_neg (by decide), if_neg (by decide)]
      cases hr : NotANumber.searchPos key (some x) qs with
      | none => rw [hr] at this; rw [hc]; exact this
      | some i =>
        rw [hr] at this
        refine ⟨Nat.succ_le_succ this.1, ?_, this.2.2⟩
        intro y hy
        have h1 : comparable key ((q :: qs).take (i + 1)) = comparable key (qs.take i) := by
          simp [comparable, hk]
        rw [h1] at hy
        exact this.2.1 y hy
    | some k =>
      have hc : comparable key (q :: qs) = k :: comparable key qs := by simp [comparable, hk]
      rw [hc] at hs
      have hs' := List.pairwise_cons.1 hs
      rw [e, hk]
      by_cases h1 : x < k
      · have e1 : NotANumber.lt (some x) (some k) = true := decide_eq_true h1
        rw [e1, if_pos rfl]
        refine ⟨Nat.zero_le _, ?_, ?_⟩
        · intro y hy; exact absurd hy (by simp [comparable])
        · intro y hy
          have hy : y ∈ comparable key (q :: qs) := hy
          rw [hc] at hy
          rcases List.mem_cons.1 hy with rfl | hy
          · exact h1
          · exact lt_trans h1 (hs'.1 y hy)
      · have e1 : NotANumber.lt (some x) (some k) = false := decide_eq_false h1
        rw [e1, if_neg (by decide)]
        by_cases h2 : x = k
        · have e2 : NotANumber.same (some x) (some k) = true := decide_eq_true h2
          rw [e2, if_pos rfl, hc, h2]
          exact List.mem_cons_self
        · have e2 : NotANumber.same (some x) (some k) = false := decide_eq_false h2
          rw [e2, if_neg (by decide)]
          have := ih hs'.2
          cases hr : NotANumber.searchPos key (some x) qs with
          | none => rw [hr] at this; rw [hc]; exact List.mem_cons_of_mem _ this
          | some i =>
            rw [hr] at this
            refine ⟨Nat.succ_le_succ this.1, ?_, this.2.2⟩
            intro y hy
            have h3 : comparable key ((q :: qs).take (i + 1)) = k :: comparable key (qs.take i) := by
              simp [comparable, hk]
            rw [h3] at hy
            rcases List.mem_cons.1 hy with rfl | hy
            · exact lt_of_le_of_ne (not_lt.1 h1) (fun e => h2 e.symm)
            · exact this.2.1 y hy

/-- Inserting where the search says keeps the comparable keys in order. -/
theorem insert_comparable {α : Type} (key : α → Dbl K) (p : α) (l : List α)
    (hs : (comparable key l).Pairwise (· < ·)) {i : ℕ} (hi : NotANumber.searchPos key (key p) l = some i) :
    (comparable key (l.insertIdx i p)).Pairwise (· < ·) := by
  have main : ∀ i ≤ l.length, (∀ x, key p = some x →
      (∀ y ∈ comparable key (l.take i), y < x) ∧ ∀ y ∈ comparable key (l.drop i), x < y) →
      (comparable key (l.insertIdx i p)).Pairwise (· < ·) := by
    intro i h hx
    rw [Verif.insertIdx_eq_take_drop l i p h]
    have hl : comparable key l = comparable key (l.take i) ++ comparable key (l.drop i) := by
      unfold comparable
      rw [← List.filterMap_append, List.take_append_drop]
    rw [hl] at hs
    have h3 := List.pairwise_append.1 hs
    cases hk : key p with
    | none =>
      have : comparable key (l.take i ++ p :: l.drop i) = comparable key (l.take i) ++ comparable key (l.drop i) := by
        simp [comparable, hk]
      rw [this]; exact hs
    | some x =>
      have e : comparable key (l.take i ++ p :: l.drop i)
          = comparable key (l.take i) ++ x :: comparable key (l.drop i) := by
        simp [comparable, hk]
      have h4 := hx x hk
      rw [e]
      refine List.pairwise_append.2 ⟨h3.1, List.pairwise_cons.2 ⟨h4.2, h3.2.1⟩, ?_⟩
      intro a ha b hb
      rcases List.mem_cons.1 hb with rfl | hb
      · exact h4.1 a ha
      · exact h3.2.2 a ha b hb
  cases hk : key p with
  | none =>
    rw [hk, searchPos_nan] at hi
    have : l.length = i := by injection hi
    exact main i this.ge (fun x hx => by rw [hk] at hx; exact absurd hx (by simp))
  | some x =>
    rw [hk] at hi
    have := searchPos_number key x l hs
    rw [hi] at this
    refine main i this.1 (fun y hy => ?_)
    rw [hk] at hy
    injection hy with hy
    subst hy
    exact this.2

/-- Deleting keeps the comparable keys in order. -/
theorem erase_comparable {α : Type} (key : α → Dbl K) (l : List α)
    (hs : (comparable key l).Pairwise (· < ·)) (i : ℕ) : (comparable key (l.eraseIdx i)).Pairwise (· < ·) :=
  hs.sublist ((List.eraseIdx_sublist l i).filterMap key)

/-- Adding a point keeps the comparable stations in order. -/
theorem add_comparable (points : List (AlignmentPoint (Dbl K))) (p : AlignmentPoint (Dbl K))
    (hs : (comparable AlignmentPoint.station points).Pairwise (· < ·)) :
    (comparable AlignmentPoint.station (NotANumber.Alignment.addPoint points p).1).Pairwise (· < ·) := by
  unfold NotANumber.Alignment.addPoint
  cases h : NotANumber.searchPos AlignmentPoint.station p.station points with
  | none => exact hs
  | some i => exact insert_comparable AlignmentPoint.station p points hs h

/-- **C169** (what holds).  Whatever points are added, put in the place of others and deleted, NaN or not: the stations
that are numbers stay strictly increasing. -/
theorem C169_points_partial (ops : List (Verif.Alignment.Op (Dbl K))) :
    (comparable AlignmentPoint.station (NotANumber.Alignment.run ops)).Pairwise (· < ·) := by
  have step : ∀ (points : List (AlignmentPoint (Dbl K))) (o : Verif.Alignment.Op (Dbl K)),
      (comparable AlignmentPoint.station points).Pairwise (· < ·) →
      (comparable AlignmentPoint.station (NotANumber.Alignment.apply points o)).Pairwise (· < ·) := by
    have del : ∀ (points : List (AlignmentPoint (Dbl K))) (i : Int),
        (comparable AlignmentPoint.station points).Pairwise (· < ·) →
        (comparable AlignmentPoint.station (NotANumber.Alignment.deletePoint points i).1).Pairwise (· < ·) := by
      intro points i hs
      unfold NotANumber.Alignment.deletePoint
      split
      · exact erase_comparable _ points hs _
      · exact hs
    intro points o hs
    cases o with
    | add p => exact add_comparable points p hs
    | delete i => exact del points i hs
    | modify i p =>
      show (comparable AlignmentPoint.station (NotANumber.Alignment.modifyPoint points i p).1).Pairwise (· < ·)
      unfold NotANumber.Alignment.modifyPoint
      split
      · dsimp only
        split
        · exact add_comparable _ _ (add_comparable _ _ (del points i hs))
        · exact add_comparable _ _ (del points i hs)
      · exact hs
  have all : ∀ (ops : List (Verif.Alignment.Op (Dbl K))) (points : List (AlignmentPoint (Dbl K))),
      (comparable AlignmentPoint.station points).Pairwise (· < ·) →
      (comparable AlignmentPoint.station (ops.foldl NotANumber.Alignment.apply points)).Pairwise (· < ·) := by
    intro ops
    induction ops with
    | nil => exact fun _ h => h
    | cons o os ih => exact fun points h => ih _ (step points o h)
  exact all ops [] List.Pairwise.nil

/-- A point all of whose members are numbers. -/
def numberPoint (p : AlignmentPoint K) : AlignmentPoint (Dbl K) := ⟨some p.elevation, some p.rotation, some p.station⟩

/-- A call whose arguments are numbers. -/
def numberOp : Verif.Alignment.Op K → Verif.Alignment.Op (Dbl K)
  | .add p => .add (numberPoint p)
  | .delete i => .delete i
  | .modify i p => .modify i (numberPoint p)

/-- Both searches agree on numbers. -/
theorem searchPos_numbers (x : K) (points : List (AlignmentPoint K)) :
    NotANumber.searchPos AlignmentPoint.station (some x) (points.map numberPoint)
      = Verif.searchPos AlignmentPoint.station x points := by
  induction points with
  | nil => rfl
  | cons q qs ih =>
    show (if NotANumber.lt (some x) (some q.station) then some 0
      else if NotANumber.same (some x) (some q.station) then none
      else (NotANumber.searchPos AlignmentPoint.station (some x) (qs.map numberPoint)).map (· + 1)) = _
    rw [ih]
    unfold NotANumber.lt NotANumber.same
    simp only [decide_eq_true_eq]
    rfl

theorem addPoint_numbers (points : List (AlignmentPoint K)) (p : AlignmentPoint K) :
    NotANumber.Alignment.addPoint (points.map numberPoint) (numberPoint p)
      = ((Verif.Alignment.addPoint points p).1.map numberPoint, (Verif.Alignment.addPoint points p).2) := by
  unfold NotANumber.Alignment.addPoint Verif.Alignment.addPoint
  have e := searchPos_numbers p.station points
  show (match NotANumber.searchPos AlignmentPoint.station (some p.station) (points.map numberPoint) with
    | none => (points.map numberPoint, (-1 : Int))
    | some i => ((points.map numberPoint).insertIdx i (numberPoint p), ((i + 1 : Nat) : Int) - 1)) = _
  rw [e]
  cases h : Verif.searchPos AlignmentPoint.station p.station points with
  | none => rfl
  | some i =>
    dsimp only
    rw [Verif.Line.map_insertIdx numberPoint points i p (Verif.searchPos_le AlignmentPoint.station h)]

theorem deletePoint_numbers (points : List (AlignmentPoint K)) (i : Int) :
    NotANumber.Alignment.deletePoint (points.map numberPoint) i
      = ((Verif.Alignment.deletePoint points i).1.map numberPoint, (Verif.Alignment.deletePoint points i).2) := by
  unfold NotANumber.Alignment.deletePoint Verif.Alignment.deletePoint
  rw [List.length_map]
  split
  · rw [List.eraseIdx_map]
  · rfl

theorem modifyPoint_numbers (points : List (AlignmentPoint K)) (i : Int) (p : AlignmentPoint K) :
    NotANumber.Alignment.modifyPoint (points.map numberPoint) i (numberPoint p)
      = ((Verif.Alignment.modifyPoint points i p).1.map numberPoint, (Verif.Alignment.modifyPoint points i p).2) := by
  unfold NotANumber.Alignment.modifyPoint Verif.Alignment.modifyPoint
  by_cases h : validIndex i points.length
  · have h' : validIndex i (points.map numberPoint).length := by rw [List.length_map]; exact h
    rw [dif_pos h, dif_pos h']
    dsimp only
    rw [deletePoint_numbers]
    have hd : (Verif.Alignment.deletePoint points i).2 = true := by
      unfold Verif.Alignment.deletePoint; rw [if_pos h]
    rw [if_neg (c := (Verif.Alignment.deletePoint points i).2 = false) (by rw [hd]; decide)]
    dsimp only
    rw [addPoint_numbers]
    dsimp only
    split
    · rename_i hs
      rw [hs, List.getElem_map, addPoint_numbers]
    · rfl
  · have h' : ¬ validIndex i (points.map numberPoint).length := by rw [List.length_map]; exact h
    rw [dif_neg h, dif_neg h']

/-- **C169** (numbers only).  As long as only numbers come in, the alignment does what the model without NaN says; so
the properties C01-C06 are statements about all calls that are not given NaN. -/
theorem C169_numbers (ops : List (Verif.Alignment.Op K)) :
    NotANumber.Alignment.run (ops.map numberOp) = (Verif.Alignment.run ops).map numberPoint := by
  have all : ∀ (ops : List (Verif.Alignment.Op K)) (points : List (AlignmentPoint K)),
      (ops.map numberOp).foldl NotANumber.Alignment.apply (points.map numberPoint)
        = (ops.foldl Verif.Alignment.Op.apply points).map numberPoint := by
    intro ops
    induction ops with
    | nil => exact fun _ => rfl
    | cons o os ih =>
      intro points
      show (os.map numberOp).foldl NotANumber.Alignment.apply
        (NotANumber.Alignment.apply (points.map numberPoint) (numberOp o)) = _
      have : NotANumber.Alignment.apply (points.map numberPoint) (numberOp o)
          = (Verif.Alignment.Op.apply points o).map numberPoint := by
        cases o with
        | add p => exact congrArg Prod.fst (addPoint_numbers points p)
        | delete i => exact congrArg Prod.fst (deletePoint_numbers points i)
        | modify i p => exact congrArg Prod.fst (modifyPoint_numbers points i p)
      rw [this]
      exact ih _
  exact all ops []

end Order

/-- **C169** (the claim fails).  A rejected `ModifyPoint` changes the alignment: the NaN point that was to be replaced
goes to the end.  Here the points at 0, NaN and 10 end up as 0, 10 and NaN although the call returned -1. -/
theorem C169_rejected_modify_moves :
    let before : List (AlignmentPoint (Dbl ℤ)) :=
      NotANumber.Alignment.run [.add ⟨some 0, some 0, some 0⟩, .add ⟨some 0, some 0, none⟩, .add ⟨some 0, some 0, some 10⟩]
    before.map (·.station) = [some 0, none, some 10] ∧
      (NotANumber.Alignment.modifyPoint before 1 ⟨some 0, some 0, some 10⟩).2 = -1 ∧
      (NotANumber.Alignment.modifyPoint before 1 ⟨some 0, some 0, some 10⟩).1.map (·.station)
        = [some 0, some 10, none] := by
  decide

section Line
variable {K : Type} [Field K] [LinearOrder K] [IsStrictOrderedRing K]

/-- **C169** (what holds).  `AddLineStructure` refuses a structure whose station is NaN. -/
theorem C169_structure_refused_partial (l : NotANumber.Line K) (h : l.points ≠ []) :
    l.addStructure none = .val (l, -1) := by
  obtain ⟨p, ps, e⟩ := List.exists_cons_of_ne_nil h
  have hv : NotANumber.Alignment.isValidStation l.points none = .val false := by
    unfold NotANumber.Alignment.isValidStation
    rw [e]
    rw [List.getLast?_cons]
    show Res.val (NotANumber.le p.station none && _) = _
    rw [le_nan]; rfl
  unfold NotANumber.Line.addStructure
  rw [hv]

/-- **C169** (the claim fails).  `ModifyLineStructure` accepts NaN as the new station of every structure. -/
theorem C169_structure_modified (l : NotANumber.Line K) (h : l.points ≠ []) (i : ℕ) (hi : i < l.stations.length) :
    l.modifyStructure i none = .val ({ l with stations := l.stations.set i none }, true) := by
  obtain ⟨p, ps, e⟩ := List.exists_cons_of_ne_nil h
  have hv : validIndex (i : Int) l.stations.length := by
    unfold validIndex
    simpa using hi
  unfold NotANumber.Line.modifyStructure
  rw [if_pos hv, e, List.getLast?_cons]
  dsimp only [List.head?_cons, Int.toNat_natCast]
  refine if_neg ?_
  rw [nan_le, le_nan]
  decide

/-- Replacing a number between its neighbours keeps the order. -/
theorem set_increasing {ns : List K} (hs : ns.Pairwise (· < ·)) {i : ℕ} (hi : i < ns.length) {x : K}
    (hb : ∀ j (hj : j < ns.length), j + 1 = i → ns[j] < x) (ha : ∀ j (hj : j < ns.length), j = i + 1 → x < ns[j]) :
    (ns.set i x).Pairwise (· < ·) := by
  have mono : ∀ a b (hA : a < ns.length) (hB : b < ns.length), a ≤ b → ns[a] ≤ ns[b] := by
    intro a b hA hB h
    rcases Nat.eq_or_lt_of_le h with rfl | h
    · exact le_refl _
    · exact le_of_lt (List.pairwise_iff_getElem.1 hs a b hA hB h)
  rw [List.pairwise_iff_getElem]
  intro a b hA hB hab
  rw [List.length_set] at hA hB
  rw [List.getElem_set, List.getElem_set]
  by_cases h1 : i = a
  · subst h1
    rw [if_pos rfl, if_neg (by omega)]
    exact lt_of_lt_of_le (ha (i + 1) (by omega) rfl) (mono _ _ _ hB (by omega))
  · rw [if_neg h1]
    by_cases h2 : i = b
    · subst h2
      rw [if_pos rfl]
      exact lt_of_le_of_lt (mono a (i - 1) hA (by omega) (by omega)) (hb (i - 1) (by omega) (by omega))
    · rw [if_neg h2]
      exact List.pairwise_iff_getElem.1 hs a b hA hB hab

/-- All stations are numbers and increase. -/
def Increasing (l : NotANumber.Line K) : Prop := ∃ ns : List K, l.stations = ns.map some ∧ ns.Pairwise (· < ·)

/-- Not a call that gives a structure NaN as its new station. -/
def Sound : NotANumber.Line.Op K → Prop
  | .modifyStructure _ s => s ≠ none
  | _ => True

theorem comparable_numbers (ns : List K) : comparable (id : Dbl K → Dbl K) (ns.map some) = ns := by
  unfold comparable
  rw [List.filterMap_map]
  exact List.filterMap_some

theorem increasing_invalid {l l' : NotANumber.Line K} (hl : Increasing l) (h : l.deleteInvalid = .val l') :
    Increasing l' := by
  obtain ⟨ns, e, hs⟩ := hl
  unfold NotANumber.Line.deleteInvalid at h
  split at h
  · rename_i f b hf hb
    injection h with h
    subst h
    refine ⟨ns.filter fun s => !(NotANumber.lt (some s) f.station || NotANumber.lt b.station (some s)), ?_,
      hs.sublist List.filter_sublist⟩
    show l.stations.filter _ = _
    rw [e, List.filter_map]
    rfl
  · exact absurd h (by simp)

theorem increasing_step {l l' : NotANumber.Line K} (hl : Increasing l) (o : NotANumber.Line.Op K) (ho : Sound o)
    (h : l.apply o = .val l') : Increasing l' := by
  cases o with
  | addPoint p => injection h with h; subst h; exact hl
  | deletePoint i =>
    have h : l.deletePoint i = .val l' := h
    unfold NotANumber.Line.deletePoint at h
    dsimp only at h
    split at h
    · exact increasing_invalid (l := { l with points := (NotANumber.Alignment.deletePoint l.points i).1 }) hl h
    · injection h with h; subst h; exact hl
  | modifyPoint i p =>
    have h : l.modifyPoint i p = .val l' := h
    unfold NotANumber.Line.modifyPoint at h
    dsimp only at h
    split at h
    · exact increasing_invalid (l := { l with points := (NotANumber.Alignment.modifyPoint l.points i p).1 }) hl h
    · injection h with h; subst h; exact hl
  | addStructure s =>
    have h : (match l.addStructure s with | .val r => Res.val r.1 | .throws => .throws | .ub => .ub) = .val l' := h
    cases s with
    | none =>
      unfold NotANumber.Line.addStructure at h
      have hv : NotANumber.Alignment.isValidStation l.points none = .val false ∨
          NotANumber.Alignment.isValidStation l.points none = .ub := by
        unfold NotANumber.Alignment.isValidStation
        split
        · rename_i f b _ _
          left
          rw [le_nan]; rfl
        · right; rfl
      rcases hv with hv | hv
      · rw [hv] at h; injection h with h; subst h; exact hl
      · rw [hv] at h; exact absurd h (by simp)
    | some x =>
      obtain ⟨ns, e, hs⟩ := hl
      unfold NotANumber.Line.addStructure at h
      cases hv : NotANumber.Alignment.isValidStation l.points (some x) with
      | ub => rw [hv] at h; exact absurd h (by simp)
      | throws => rw [hv] at h; exact absurd h (by simp)
      | val b =>
        rw [hv] at h
        cases b with
        | false => injection h with h; subst h; exact ⟨ns, e, hs⟩
        | true =>
          dsimp only at h
          cases hp : NotANumber.searchPos id (some x) l.stations with
          | none => rw [hp] at h; injection h with h; subst h; exact ⟨ns, e, hs⟩
          | some i =>
            rw [hp] at h
            injection h with h
            subst h
            rw [e] at hp
            have hc : (comparable (id : Dbl K → Dbl K) (ns.map some)).Pairwise (· < ·) := by
              rw [comparable_numbers]; exact hs
            have h1 := searchPos_number (id : Dbl K → Dbl K) x (ns.map some) hc
            rw [hp] at h1
            have hi : i ≤ ns.length := by simpa using h1.1
            have h2 := insert_comparable (id : Dbl K → Dbl K) (some x) (ns.map some) hc hp
            refine ⟨ns.insertIdx i x, ?_, ?_⟩
            · show l.stations.insertIdx i (some x) = _
              rw [e, Verif.Line.map_insertIdx some ns i x hi]
            · rw [← Verif.Line.map_insertIdx some ns i x hi, comparable_numbers] at h2
              exact h2
  | deleteStructure i =>
    injection h with h
    subst h
    obtain ⟨ns, e, hs⟩ := hl
    unfold NotANumber.Line.deleteStructure
    split
    · exact ⟨ns.eraseIdx i.toNat, by show l.stations.eraseIdx _ = _; rw [e, List.eraseIdx_map],
        hs.sublist (List.eraseIdx_sublist ns _)⟩
    · exact ⟨ns, e, hs⟩
  | modifyStructure i s =>
    have h : (match l.modifyStructure i s with | .val r => Res.val r.1 | .throws => .throws | .ub => .ub) = .val l' := h
    obtain ⟨x, hx⟩ := Option.ne_none_iff_exists'.1 ho
    subst hx
    obtain ⟨ns, e, hs⟩ := hl
    unfold NotANumber.Line.modifyStructure at h
    by_cases hv : validIndex i l.stations.length
    · rw [if_pos hv] at h
      have hi : i.toNat < ns.length := by
        have := (validIndex_toNat hv).1
        rw [e, List.length_map] at this
        exact this
      cases hf : l.points.head? with
      | none => rw [hf] at h; exact absurd h (by simp)
      | some f =>
        cases hb : l.points.getLast? with
        | none => rw [hf, hb] at h; exact absurd h (by simp)
        | some b =>
          rw [hf, hb] at h
          dsimp only at h
          split at h
          · rename_i r hr
            injection h with h
            subst h
            split at hr
            · injection hr with hr; subst hr; exact ⟨ns, e, hs⟩
            · rename_i hn
              injection hr with hr
              subst hr
              rw [Bool.or_eq_true, not_or] at hn
              refine ⟨ns.set i.toNat x, by show l.stations.set _ _ = _; rw [e, List.map_set], ?_⟩
              refine set_increasing hs hi ?_ ?_
              · intro j hj hji
                have h1 := hn.1
                unfold NotANumber.Line.back at h1
                rw [if_neg (by omega), e, List.getElem?_map,
                  show i.toNat - 1 = j by omega, List.getElem?_eq_getElem hj] at h1
                have h1 : ¬ (decide (x ≤ ns[j]) = true) := h1
                rw [decide_eq_true_eq] at h1
                exact not_le.1 h1
              · intro j hj hji
                have h1 := hn.2
                unfold NotANumber.Line.ahead at h1
                rw [if_neg (by rw [e, List.length_map]; omega), e, List.getElem?_map,
                  show i.toNat + 1 = j by omega, List.getElem?_eq_getElem hj] at h1
                have h1 : ¬ (decide (ns[j] ≤ x) = true) := h1
                rw [decide_eq_true_eq] at h1
                exact not_le.1 h1
          · exact absurd h (by simp)
          · exact absurd h (by simp)
    · rw [if_neg hv] at h
      injection h with h
      subst h
      exact ⟨ns, e, hs⟩

/-- **C169** (what holds).  Unless `ModifyLineStructure` is given NaN, all structures of a line have numbers as their
stations, in strictly increasing order, whatever NaN points the alignment is given. -/
theorem C169_structures_partial (ops : List (NotANumber.Line.Op K)) (hs : ∀ o ∈ ops, Sound o)
    {l : NotANumber.Line K} (h : NotANumber.Line.run ⟨[], []⟩ ops = .val l) :
    ∃ ns : List K, l.stations = ns.map some ∧ ns.Pairwise (· < ·) := by
  have all : ∀ (ops : List (NotANumber.Line.Op K)) (l0 : NotANumber.Line K), Increasing l0 → (∀ o ∈ ops, Sound o) →
      NotANumber.Line.run l0 ops = .val l → Increasing l := by
    intro ops
    induction ops with
    | nil => intro l0 h0 _ h; injection h with h; subst h; exact h0
    | cons o os ih =>
      intro l0 h0 hs h
      have h : (match l0.apply o with | .val l' => NotANumber.Line.run l' os | .throws => .throws | .ub => .ub)
          = .val l := h
      cases ha : l0.apply o with
      | val l1 =>
        rw [ha] at h
        exact ih l1 (increasing_step h0 o (hs o List.mem_cons_self) ha) (fun o ho => hs o (List.mem_cons_of_mem _ ho)) h
      | throws => rw [ha] at h; exact absurd h (by simp)
      | ub => rw [ha] at h; exact absurd h (by simp)
  exact all ops ⟨[], []⟩ ⟨[], rfl, List.Pairwise.nil⟩ hs h

end Line

/-- **C169** (the claim fails).  With a NaN point at its end, an alignment can be shortened without losing the
structures beyond: here the structure at 90 stays although the last point that is a number is at 0. -/
theorem C169_left_outside :
    NotANumber.Line.run (K := ℚ) ⟨[], []⟩
      [.addPoint ⟨some 0, some 0, some 0⟩, .addPoint ⟨some 0, some 0, some 100⟩, .addStructure (some 90),
        .addPoint ⟨some 0, some 0, none⟩, .deletePoint 1]
      = .val ⟨[⟨some 0, some 0, some 0⟩, ⟨some 0, some 0, none⟩], [some 90]⟩ := by
  decide +kernel

/-- The same history without NaN: the structure goes. -/
example : NotANumber.Line.run (K := ℚ) ⟨[], []⟩
      [.addPoint ⟨some 0, some 0, some 0⟩, .addPoint ⟨some 0, some 0, some 100⟩, .addStructure (some 90),
        .deletePoint 1]
      = .val ⟨[⟨some 0, some 0, some 0⟩], []⟩ := by
  decide +kernel

/-- The history of `C169_left_outside` meets the condition of `C169_structures_partial`. -/
example : ∀ o ∈ ([.addPoint ⟨some 0, some 0, some 0⟩, .addPoint ⟨some 0, some 0, some 100⟩, .addStructure (some 90),
        .addPoint ⟨some 0, some 0, none⟩, .deletePoint 1] : List (NotANumber.Line.Op ℚ)), Sound o := by
  intro o ho
  simp only [List.mem_cons, List.not_mem_nil, or_false] at ho
  rcases ho with rfl | rfl | rfl | rfl | rfl <;> exact trivial

/-! ### Validators -/

section Validators

/-- `b` is `a`, or NaN. -/
def Blanked {K : Type} (a b : Dbl K) : Prop := b = a ∨ b = none

section
variable {K : Type} [LinearOrder K]

theorem Blanked.lt_left {a b c : Dbl K} (h : Blanked a b) (hc : NotANumber.lt a c = false) :
    NotANumber.lt b c = false := by
  rcases h with rfl | rfl
  · exact hc
  · exact nan_lt c

theorem Blanked.lt_right {a b c : Dbl K} (h : Blanked a b) (hc : NotANumber.lt c a = false) :
    NotANumber.lt c b = false := by
  rcases h with rfl | rfl
  · exact hc
  · exact lt_nan c

theorem Blanked.le_left {a b c : Dbl K} (h : Blanked a b) (hc : NotANumber.le a c = false) :
    NotANumber.le b c = false := by
  rcases h with rfl | rfl
  · exact hc
  · exact nan_le c

theorem issue_nil {b : Bool} {m : String} : issue b m = [] ↔ b = false := by
  cases b <;> simp [issue]

end

theorem Blanked.map {a b : Dbl ℝ} (f : ℝ → ℝ) (h : Blanked a b) : Blanked (a.map f) (b.map f) := by
  rcases h with rfl | rfl
  · exact Or.inl rfl
  · exact Or.inr rfl

/-- **C169** (the claim fails).  An accepted alignment point stays accepted when any of its numbers become NaN. -/
theorem C169_point_passes {p q : AlignmentPoint (Dbl ℝ)} (h : (validatePoint p).1 = true)
    (h1 : Blanked p.elevation q.elevation) (h2 : Blanked p.rotation q.rotation) (h3 : Blanked p.station q.station) :
    validatePoint q = (true, []) := by
  have hm : (validatePoint p).2 = [] := List.isEmpty_iff.1 h
  simp only [validatePoint, List.append_eq_nil_iff, issue_nil] at hm
  have : (validatePoint q).2 = [] := by
    simp only [validatePoint, List.append_eq_nil_iff, issue_nil]
    exact ⟨⟨h1.lt_left hm.1.1, (h2.map _).lt_right hm.1.2⟩, h3.lt_left hm.2⟩
  refine Prod.ext ?_ this
  show (validatePoint q).2.isEmpty = true
  rw [this]; rfl

/-- **C169** (the claim fails).  An accepted weather case stays accepted when any of its numbers become NaN. -/
theorem C169_weather_passes {c d : Weather} (h : c.validate.1 = true) (h1 : Blanked c.densityIce d.densityIce)
    (h2 : Blanked c.pressureWind d.pressureWind) (h3 : Blanked c.temperatureCable d.temperatureCable)
    (h4 : Blanked c.thicknessIce d.thicknessIce) : d.validate = (true, []) := by
  have hm : c.validate.2 = [] := List.isEmpty_iff.1 h
  simp only [Weather.validate, List.append_eq_nil_iff, issue_nil] at hm
  have : d.validate.2 = [] := by
    simp only [Weather.validate, List.append_eq_nil_iff, issue_nil]
    exact ⟨⟨⟨h1.lt_left hm.1.1.1, h2.lt_left hm.1.1.2⟩, h3.lt_left hm.1.2⟩, h4.lt_left hm.2⟩
  refine Prod.ext ?_ this
  show d.validate.2.isEmpty = true
  rw [this]; rfl

/-- **C169** (the claim fails).  An accepted cable state, and an accepted stretch, stay accepted when their numbers
become NaN. -/
theorem C169_state_passes {s t : State} (ht : t.type = s.type) (h1 : Blanked s.temperature t.temperature)
    (h2 : Blanked s.load t.load) :
    (s.validateState.1 = true → t.validateState = (true, [])) ∧
      (s.validateStretch.1 = true → t.validateStretch.1 = true) := by
  constructor
  · intro h
    have hm : s.validateState.2 = [] := List.isEmpty_iff.1 h
    simp only [State.validateState, List.append_eq_nil_iff, issue_nil] at hm
    have : t.validateState.2 = [] := by
      simp only [State.validateState, List.append_eq_nil_iff, issue_nil]
      exact ⟨h1.lt_left hm.1, by rw [ht]; exact hm.2⟩
    refine Prod.ext ?_ this
    show t.validateState.2.isEmpty = true
    rw [this]; rfl
  · intro h
    have hm : issue (NotANumber.lt s.load (some 0)) "Invalid stretch load" = [] := List.isEmpty_iff.1 h
    have : issue (NotANumber.lt t.load (some 0)) "Invalid stretch load" = [] :=
      issue_nil.2 (h2.lt_left (issue_nil.1 hm))
    show (issue (NotANumber.lt t.load (some 0)) "Invalid stretch load").isEmpty = true
    rw [this]; rfl

/-- **C169** (the claim fails).  An accepted constraint stays accepted when its limit becomes NaN. -/
theorem C169_constraint_passes {c : Constraint} (h : c.validate.1 = true) :
    ({ c with limit := none } : Constraint).validate.1 = true := by
  have h := (Bool.and_eq_true _ _).mp h
  have hm := List.isEmpty_iff.1 h.2
  simp only [List.append_eq_nil_iff, issue_nil] at hm
  refine (Bool.and_eq_true _ _).mpr ⟨h.1, List.isEmpty_iff.2 ?_⟩
  simp only [List.append_eq_nil_iff, issue_nil]
  exact ⟨⟨hm.1.1, nan_lt _⟩, hm.2⟩

/-- **C169** (the claim fails).  Accepted hardware stays accepted when any of its numbers become NaN. -/
theorem C169_hardware_passes {t : HardwareType} {a l w a' l' w' : Dbl ℝ} (h : (validateHardware t a l w).1 = true)
    (h1 : Blanked a a') (h2 : Blanked l l') (h3 : Blanked w w') : validateHardware t a' l' w' = (true, []) := by
  have hm : (validateHardware t a l w).2 = [] := List.isEmpty_iff.1 h
  simp only [validateHardware, List.append_eq_nil_iff, issue_nil] at hm
  have : (validateHardware t a' l' w').2 = [] := by
    simp only [validateHardware, List.append_eq_nil_iff, issue_nil]
    exact ⟨⟨⟨h1.lt_left hm.1.1.1, h2.lt_left hm.1.1.2⟩, hm.1.2⟩, h3.lt_left hm.2⟩
  refine Prod.ext ?_ this
  show (validateHardware t a' l' w').2.isEmpty = true
  rw [this]; rfl

/-- **C169** (the claim fails).  A structure of any attachments is accepted with NaN as its height, wherever the
attachments are. -/
theorem C169_structure_passes {t : Structure (Dbl ℝ)} (h : t.attachments ≠ []) (hh : t.height = none) :
    (validateStructure t).1 = true := by
  have e1 : decide (t.attachments.length ≠ 0) = true := decide_eq_true (by simpa using h)
  have e2 : issue (NotANumber.le t.height (some 0)) "Invalid height" = [] := by rw [hh, nan_le]; rfl
  have e3 : (t.attachments.flatMap fun a => issue (NotANumber.lt t.height a.offsetVerticalTop)
      "Invalid attachment vertical offset. Exceeds structure height") = [] := by
    rw [List.flatMap_eq_nil_iff]
    intro a _
    rw [hh, nan_lt]; rfl
  unfold validateStructure
  dsimp only
  rw [e1, e2, e3]; rfl

/-- **C169** (the claim fails).  Accepted thermal weather stays accepted when any of its numbers become NaN. -/
theorem C169_thermal_passes {c d : NotANumber.ThermalWeather} (h : c.validate.1 = true)
    (h1 : Blanked c.angleWind d.angleWind) (h2 : Blanked c.elevation d.elevation)
    (h3 : Blanked c.radiationSolar d.radiationSolar) (h4 : Blanked c.speedWind d.speedWind)
    (h5 : Blanked c.temperatureAir d.temperatureAir) : d.validate = (true, []) := by
  have hm : c.validate.2 = [] := List.isEmpty_iff.1 h
  simp only [NotANumber.ThermalWeather.validate, List.append_eq_nil_iff, issue_nil, Bool.or_eq_false_iff] at hm
  have : d.validate.2 = [] := by
    simp only [NotANumber.ThermalWeather.validate, List.append_eq_nil_iff, issue_nil, Bool.or_eq_false_iff]
    exact ⟨⟨⟨⟨⟨h1.lt_left hm.1.1.1.1.1, h1.lt_right hm.1.1.1.1.2⟩, h2.lt_left hm.1.1.1.2⟩, h3.lt_left hm.1.1.2⟩,
      h4.lt_left hm.1.2⟩, h5.lt_left hm.2.1, h5.lt_right hm.2.2⟩
  refine Prod.ext ?_ this
  show d.validate.2.isEmpty = true
  rw [this]; rfl

/-- **C169** (the claim fails).  An accepted cable stays accepted when its area, diameter or weight become NaN. -/
theorem C169_cable_passes {a d w a' d' w' : Dbl ℝ} (h : (validateCable a d w).1 = true)
    (h1 : Blanked a a') (h2 : Blanked d d') (h3 : Blanked w w') : validateCable a' d' w' = (true, []) := by
  have hm : (validateCable a d w).2 = [] := List.isEmpty_iff.1 h
  simp only [validateCable, List.append_eq_nil_iff, issue_nil] at hm
  have : (validateCable a' d' w').2 = [] := by
    simp only [validateCable, List.append_eq_nil_iff, issue_nil]
    exact ⟨⟨h1.lt_left hm.1.1, h2.le_left hm.1.2⟩, h3.le_left hm.2⟩
  refine Prod.ext ?_ this
  show (validateCable a' d' w').2.isEmpty = true
  rw [this]; rfl

/-! On numbers these validators are those of the other files. -/

theorem issue_decide (p : Prop) [Decidable p] (m : String) : issue (decide p) m = if p then [m] else [] := by
  by_cases h : p
  · rw [if_pos h, decide_eq_true h]; rfl
  · rw [if_neg h, decide_eq_false h]; rfl

theorem lt_numbers (a b : ℝ) : NotANumber.lt (some a) (some b) = decide (a < b) := rfl

theorem le_numbers (a b : ℝ) : NotANumber.le (some a) (some b) = decide (a ≤ b) := rfl

/-- **C169** (numbers only).  Given numbers only, the validators modelled with NaN are the validators that the other
properties speak about. -/
theorem C169_validators_numbers :
    (∀ p : AlignmentPoint ℝ, validatePoint (numberPoint p) = p.validate) ∧
    (∀ c : Verif.WeatherLoadCase, Weather.validate ⟨some c.densityIce, some c.pressureWind, some c.temperatureCable,
      some c.thicknessIce⟩ = c.validate) ∧
    (∀ (s : CableState) (x : Dbl ℝ), State.validateState ⟨some s.temperature, s.type, x⟩ = s.validate) ∧
    (∀ s : CableStretchState, State.validateStretch ⟨some s.temperature, s.type, some s.load⟩ = s.validate) ∧
    (∀ (h : Hardware) (n : HardwareNumbers), validateHardware h.type (some n.area) (some n.length) (some n.weight)
      = h.validate n) ∧
    (∀ w : Verif.ThermalWeather, NotANumber.ThermalWeather.validate ⟨some w.angleWind, some w.elevation,
      some w.radiationSolar, some w.speedWind, some w.temperatureAir⟩ = w.validate) ∧
    (∀ k : Cable, validateCable (some k.areaPhysical) (some k.diameter) (some k.weightUnit) = k.validate) := by
  refine ⟨?_, ?_, ?_, ?_, ?_, ?_, ?_⟩
  · intro p
    simp only [validatePoint, numberPoint, AlignmentPoint.validate, Option.map_some, lt_numbers, issue_decide]
  · intro c
    simp only [Weather.validate, WeatherLoadCase.validate, lt_numbers, issue_decide]
  · intro s x
    simp only [State.validateState, CableState.validate, lt_numbers, issue_decide]
  · intro s
    simp only [State.validateStretch, State.validateState, CableStretchState.validate, CableState.validate,
      CableStretchState.base, lt_numbers, issue_decide]
    congr
  · intro h n
    simp only [validateHardware, Hardware.validate, lt_numbers, issue_decide]
  · intro w
    simp only [NotANumber.ThermalWeather.validate, Verif.ThermalWeather.validate, lt_numbers, ← Bool.decide_or,
      issue_decide]
  · intro k
    simp only [validateCable, Cable.validate, lt_numbers, le_numbers, issue_decide]

/-- Accepted objects to blank: a weather case, a point, a cable. -/
example : (Weather.validate ⟨some 57, some 4, some 0, some 0.5⟩).1 = true ∧
    Weather.validate ⟨none, none, none, none⟩ = (true, []) ∧
    (validatePoint ⟨some 100, some 45, some 0⟩).1 = true ∧ validatePoint ⟨none, none, none⟩ = (true, []) ∧
    (validateCable (some 1) (some 1.1) (some 1.2)).1 = true ∧
    (validateCable (some 1) (some (-1)) (some 1.2)).1 = false := by
  have w : (Weather.validate ⟨some 57, some 4, some 0, some 0.5⟩).1 = true := by
    norm_num [Weather.validate, lt_numbers, issue]
  have p : (validatePoint ⟨some 100, some 45, some 0⟩).1 = true := by
    norm_num [validatePoint, lt_numbers, issue, abs_of_pos]
  refine ⟨w, C169_weather_passes w (.inr rfl) (.inr rfl) (.inr rfl) (.inr rfl), p,
    C169_point_passes p (.inr rfl) (.inr rfl) (.inr rfl), ?_, ?_⟩
  · norm_num [validateCable, lt_numbers, le_numbers, issue]
  · norm_num [validateCable, lt_numbers, le_numbers, issue]

end Validators

end Verif.Props
