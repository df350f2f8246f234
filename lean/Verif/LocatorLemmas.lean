import Verif.Locator
import Verif.LineLoaderLemmas
import Verif.Catenary3dLemmas

/-! # Lemmas about the cable position locator -/

set_option linter.unusedSectionVars false

namespace Verif

namespace GLine

theorem update_line {g g' : GLine} {b : Bool} (h : g.update = .ok g' b) :
    g'.line = g.line ∧ g'.flagA = true := by
  unfold update at h
  have ha : g.updateA.line = g.line ∧ g.updateA.flagA = true := by
    unfold updateA
    split
    · exact ⟨rfl, rfl⟩
    · rename_i hf
      exact ⟨rfl, by simpa using hf⟩
  simp only at h
  split at h
  · split at h
    · cases h; exact ha
    · cases h
    · cases h
  · cases h; exact ha

theorem refresh_line {g g' : GLine} {b : Bool} (h : g.refresh = .ok g' b) :
    g'.line = g.line ∧ g'.isUpdated = true := by
  unfold refresh at h
  split at h
  · obtain ⟨a, c⟩ := update_line h
    exact ⟨a, by simp [isUpdated, c]⟩
  · rename_i hf
    cases h
    exact ⟨rfl, by simpa using hf⟩

theorem refresh_updated {g : GLine} (h : g.isUpdated = true) : g.refresh = .ok g true := by
  unfold refresh
  rw [if_neg (by simp [h])]

theorem query_ok {A : Type} {g g' : GLine} {f : GLine → Res A} {a : A} (h : g.query f = .ok g' a) :
    g'.line = g.line ∧ g'.isUpdated = true ∧
      ∀ {B : Type} (f' : GLine → Res B), g.query f' = g'.query f' := by
  have h' := h
  unfold query at h'
  match hr : g.refresh with
  | .ub => rw [hr] at h'; cases h'
  | .throws _ => rw [hr] at h'; cases h'
  | .ok g1 b =>
    rw [hr] at h'
    obtain ⟨e1, e2⟩ := refresh_line hr
    have hg : g' = g1 := by
      simp only at h'
      split at h'
      · cases h'; rfl
      · cases h'
      · cases h'
    subst hg
    refine ⟨e1, e2, fun f' => ?_⟩
    unfold query
    rw [hr, refresh_updated e2]

theorem query_updated {A : Type} {g g' : GLine} {f : GLine → Res A} {a : A} (h : g.isUpdated = true)
    (hq : g.query f = .ok g' a) : g' = g := by
  unfold query at hq
  rw [refresh_updated h] at hq
  simp only at hq
  split at hq
  · cases hq; rfl
  · cases hq
  · cases hq

end GLine

namespace Locator

variable {as : Assemblies}

/-- What a returned connection says about the line. -/
theorem connectionData_ok {g g' : GLine} {c : Connection} {r : Option (P3 × ℝ)}
    (h : connectionData as g c = .ok g' r) :
    g'.line = g.line ∧ g'.isUpdated = true ∧ (∀ c', connectionData as g c' = connectionData as g' c') ∧
      (g.isUpdated = true → g' = g) ∧
      ∀ p l, r = some (p, l) → l = as c.ptr c.attachment.toNat ∧ p.x ≠ -999999 ∧
        g.pointXyzLineStructureAttachment (g.line.indexLineStructure c.ptr) c.attachment = .ok g' (some p) := by
  have h' := h
  unfold connectionData at h'
  simp only at h'
  match hq : g.pointXyzLineStructureAttachment (g.line.indexLineStructure c.ptr) c.attachment with
  | .ub => rw [hq] at h'; cases h'
  | .throws _ => rw [hq] at h'; cases h'
  | .ok _ none => rw [hq] at h'; cases h'
  | .ok g1 (some p) =>
    rw [hq] at h'
    obtain ⟨e1, e2, e3⟩ := GLine.query_ok hq
    have e4 : ∀ c', connectionData as g c' = connectionData as g1 c' := by
      intro c'
      unfold connectionData
      simp only
      rw [e1]
      have := e3 (fun g => g.attachmentPoint (g1.line.indexLineStructure c'.ptr) c'.attachment)
      unfold GLine.pointXyzLineStructureAttachment
      rw [e1] at this
      rw [this]
    have e5 : g.isUpdated = true → g1 = g := fun hu => GLine.query_updated hu hq
    simp only at h'
    split at h'
    · cases h'
      exact ⟨e1, e2, e4, e5, by intro p l h; cases h⟩
    · rename_i hx
      split at h'
      · cases h'
      · split at h'
        · cases h'
        · split at h'
          · cases h'
            refine ⟨e1, e2, e4, e5, ?_⟩
            intro p' l' hpl
            cases hpl
            exact ⟨rfl, hx, rfl⟩
          · cases h'
            exact ⟨e1, e2, e4, e5, by intro p l h; cases h⟩

/-- The data of a connection as the line answers. -/
def Reads (as : Assemblies) (g : GLine) (c : Connection) (d : P3 × ℝ) : Prop :=
  d.2 = as c.ptr c.attachment.toNat ∧ d.1.x ≠ -999999 ∧
    ∃ g', g.pointXyzLineStructureAttachment (g.line.indexLineStructure c.ptr) c.attachment = .ok g' (some d.1)

theorem connectionLoop_ok : ∀ (cs : List Connection) {g g' : GLine} {ds ds' : List (P3 × ℝ)} {b : Bool},
    connectionLoop as cs g ds = .ok (g', ds') b →
    g'.line = g.line ∧ (g.isUpdated = true → g' = g) ∧ connectionLoop as cs g' ds = .ok (g', ds') b ∧
      ∃ es, ds' = ds ++ es ∧ (b = true → List.Forall₂ (Reads as g) cs es)
  | [], g, g', ds, ds', b, h => by
    unfold connectionLoop at h
    cases h
    exact ⟨rfl, fun _ => rfl, rfl, [], by simp, fun _ => .nil⟩
  | c :: cs, g, g', ds, ds', b, h => by
    have h' := h
    unfold connectionLoop at h'
    match hd : connectionData as g c with
    | .ub => rw [hd] at h'; cases h'
    | .nan => rw [hd] at h'; cases h'
    | .throws _ => rw [hd] at h'; cases h'
    | .ok g1 none =>
      rw [hd] at h'
      simp only at h'
      obtain ⟨e1, e2, e3, e4, -⟩ := connectionData_ok hd
      cases h'
      refine ⟨e1, e4, ?_, [], by simp, by intro h; cases h⟩
      unfold connectionLoop
      rw [← e3, hd]
    | .ok g1 (some d) =>
      rw [hd] at h'
      simp only at h'
      obtain ⟨e1, e2, e3, e4, e5⟩ := connectionData_ok hd
      obtain ⟨f1, f2, f3, es, f4, f5⟩ := connectionLoop_ok cs h'
      have hg : g' = g1 := f2 e2
      subst hg
      refine ⟨e1, e4, ?_, d :: es, by simp [f4], fun hb => .cons ?_ ?_⟩
      · unfold connectionLoop
        rw [← e3, hd]
        exact f3
      · obtain ⟨a1, a2, a3⟩ := e5 d.1 d.2 rfl
        exact ⟨a1, a2, g', a3⟩
      · have := f5 hb
        refine this.imp ?_
        rintro c' d' ⟨a1, a2, g2, a3⟩
        refine ⟨a1, a2, g', ?_⟩
        rw [e1] at a3
        have hq := e5 d.1 d.2 rfl
        obtain ⟨q1, q2, q3⟩ := GLine.query_ok hq.2.2
        have q4 := q3 (fun x => x.attachmentPoint (g.line.indexLineStructure c'.ptr) c'.attachment)
        have : g2 = g' := GLine.query_updated e2 a3
        subst this
        unfold GLine.pointXyzLineStructureAttachment at a3 ⊢
        rw [q4]; exact a3

/-! ### Hardware -/

theorem mapM_spec {A B : Type} (f : A → Option B) : ∀ (l : List A) {r : List B}, l.mapM f = some r →
    List.Forall₂ (fun a b => f a = some b) l r
  | [], r, h => by
    simp at h; subst h; exact .nil
  | a :: l, r, h => by
    rw [List.mapM_cons] at h
    match hf : f a with
    | none => rw [hf] at h; cases h
    | some b =>
      rw [hf] at h
      match hl : l.mapM f with
      | none => rw [hl] at h; cases h
      | some bs =>
        rw [hl] at h
        cases h
        exact .cons hf (mapM_spec f l hl)

theorem mapM_range {B : Type} {f : ℕ → Option B} {n : ℕ} {r : List B} (h : (List.range n).mapM f = some r) :
    r.length = n ∧ ∀ i b, r[i]? = some b → i < n ∧ f i = some b := by
  have hs := mapM_spec f _ h
  have hl := hs.length_eq
  rw [List.length_range] at hl
  refine ⟨hl.symm, fun i b hb => ?_⟩
  have hi : i < r.length := by
    rw [List.getElem?_eq_some_iff] at hb; exact hb.1
  refine ⟨hl ▸ hi, ?_⟩
  have := (List.forall₂_iff_get.1 hs).2 i (by rw [List.length_range]; omega) hi
  rw [List.getElem?_eq_getElem hi] at hb
  cases hb
  simpa using this

/-- What never changes in a hardware point. -/
def Fixed (ps : List P3) (ls : List ℝ) (i : ℕ) (h : Spherical) : Prop :=
  if i = 0 ∨ i = ps.length - 1 then h = ⟨0, 0, 0⟩
  else ∃ b c a v, ps[i - 1]? = some b ∧ ps[i]? = some c ∧ ps[i + 1]? = some a ∧ bisector b c a = some v ∧
    ls[i]? = some h.radius ∧ h.angleX = v.angle

/-- The hardware points belong to the structure points. -/
def Fits (ps : List P3) (ls : List ℝ) (hs : List Spherical) : Prop :=
  hs.length = ps.length ∧ ∀ i h, hs[i]? = some h → Fixed ps ls i h

theorem initialHardware_fits {ps : List P3} {ls : List ℝ} {hs : List Spherical}
    (h : initialHardware ps ls = some hs) : Fits ps ls hs := by
  obtain ⟨hl, hg⟩ := mapM_range h
  refine ⟨hl, fun i p hp => ?_⟩
  have := (hg i p hp).2
  unfold initialAt at this
  unfold Fixed
  split at this
  · rename_i hi
    rw [if_pos hi]
    cases this; rfl
  · rename_i hi
    rw [if_neg hi]
    split at this
    · rename_i b c a l e1 e2 e3 e4
      match hb : bisector b c a with
      | none => rw [hb] at this; cases this
      | some v =>
        rw [hb] at this
        cases this
        exact ⟨b, c, a, v, e1, e2, e3, hb, e4, rfl⟩
    · cases this

theorem adjustAt_some {d : Direction} {h : ℝ} {w : V3} {qs : List P3} {hs : List Spherical} {i : ℕ} {p : Spherical}
    {t : ℝ} (ha : adjustAt d h w qs hs i = some (p, t)) :
    ∃ p0, hs[i]? = some p0 ∧
      ((i = 0 ∨ i = qs.length - 1) ∧ p = p0 ∧ t = 0 ∨
       ¬ (i = 0 ∨ i = qs.length - 1) ∧ ∃ b c a, qs[i - 1]? = some b ∧ qs[i]? = some c ∧ qs[i + 1]? = some a ∧
        h ≠ 0 ∧ w.magnitude ≠ 0 ∧ (across b c).magnitude ≠ 0 ∧ (across c a).magnitude ≠ 0 ∧
        ∃ s s', (equilibriumAt d h w b c a p0.angleZ).angleEquilibriumQ = .ok s p.angleZ ∧
          s.tensionImbalance = .ok s' t ∧ p = { p0 with angleZ := p.angleZ }) := by
  unfold adjustAt at ha
  match hh : hs[i]? with
  | none => rw [hh] at ha; cases ha
  | some p0 =>
    rw [hh] at ha
    refine ⟨p0, rfl, ?_⟩
    simp only at ha
    split at ha
    · rename_i hi
      cases ha
      exact Or.inl ⟨hi, rfl, rfl⟩
    · rename_i hi
      refine Or.inr ⟨hi, ?_⟩
      split at ha
      · rename_i b c a e1 e2 e3
        split at ha
        · cases ha
        · rename_i hz
          push Not at hz
          split at ha
          · rename_i s z e4
            split at ha
            · rename_i s' t' e5
              cases ha
              exact ⟨b, c, a, e1, e2, e3, hz.1, hz.2.1, hz.2.2.1, hz.2.2.2, s, s', e4, e5, rfl⟩
            · cases ha
          · cases ha
      · cases ha

theorem adjusted_some {d : Direction} {h : ℝ} {w : V3} {qs : List P3} {hs hs' : List Spherical} {m : ℝ}
    (ha : adjusted d h w qs hs = some (hs', m)) :
    hs'.length = qs.length ∧ ∀ i p, hs'[i]? = some p → ∃ t, adjustAt d h w qs hs i = some (p, t) := by
  unfold adjusted at ha
  match hm : (List.range qs.length).mapM (adjustAt d h w qs hs) with
  | none => rw [hm] at ha; cases ha
  | some rs =>
    rw [hm] at ha
    cases ha
    obtain ⟨hl, hg⟩ := mapM_range hm
    refine ⟨by simp [hl], fun i p hp => ?_⟩
    rw [List.getElem?_map] at hp
    match hr : rs[i]? with
    | none => rw [hr] at hp; cases hp
    | some r =>
      rw [hr] at hp
      cases hp
      exact ⟨r.2, (hg i r hr).2⟩

theorem placed_length {ps : List P3} {hs : List Spherical} (h : hs.length = ps.length) :
    (placed ps hs).length = ps.length := by
  simp [placed, h]

theorem placed_get {ps : List P3} {hs : List Spherical} {i : ℕ} {q : P3} (h : (placed ps hs)[i]? = some q) :
    ∃ p k, ps[i]? = some p ∧ hs[i]? = some k ∧ q = place p k := by
  unfold placed at h
  rw [List.getElem?_zipWith] at h
  match hp : ps[i]?, hk : hs[i]? with
  | some p, some k => rw [hp, hk] at h; cases h; exact ⟨p, k, rfl, rfl, rfl⟩
  | none, _ => rw [hp] at h; cases h
  | some _, none => rw [hp, hk] at h; cases h

theorem adjusted_fits {d : Direction} {h : ℝ} {w : V3} {ps : List P3} {ls : List ℝ} {hs hs' : List Spherical} {m : ℝ}
    (hf : Fits ps ls hs) (ha : adjusted d h w (placed ps hs) hs = some (hs', m)) : Fits ps ls hs' := by
  obtain ⟨hl, hg⟩ := adjusted_some ha
  rw [placed_length hf.1] at hl
  refine ⟨hl, fun i p hp => ?_⟩
  obtain ⟨t, ht⟩ := hg i p hp
  obtain ⟨p0, h0, hc⟩ := adjustAt_some ht
  rw [placed_length hf.1] at hc
  have f0 := hf.2 i p0 h0
  rcases hc with ⟨-, rfl, -⟩ | ⟨hi, b, c, a, -, -, -, -, -, -, -, s, s', -, -, e⟩
  · exact f0
  · unfold Fixed at f0 ⊢
    rw [if_neg hi] at f0 ⊢
    rw [e]
    exact f0

theorem solveLoop_fits {d : Direction} {h : ℝ} {w : V3} {ps : List P3} {ls : List ℝ} :
    ∀ (n : ℕ) {hs hs' : List Spherical} {b : Bool}, Fits ps ls hs → solveLoop d h w ps n hs = some (b, hs') →
      Fits ps ls hs' ∧ (b = true → ∃ hs0 m, Fits ps ls hs0 ∧ |m| < 5 ∧
        adjusted d h w (placed ps hs0) hs0 = some (hs', m))
  | 0, hs, hs', b, hf, hl => by
    unfold solveLoop at hl
    cases hl
    exact ⟨hf, by intro h; cases h⟩
  | n + 1, hs, hs', b, hf, hl => by
    unfold solveLoop at hl
    match ha : adjusted d h w (placed ps hs) hs with
    | none => rw [ha] at hl; cases hl
    | some (hs1, m) =>
      rw [ha] at hl
      have f1 := adjusted_fits hf ha
      simp only at hl
      split at hl
      · exact solveLoop_fits n f1 hl
      · rename_i hm
        cases hl
        exact ⟨f1, fun _ => ⟨hs, m, hf, not_le.1 hm, ha⟩⟩

/-! ### Updates -/

/-- What holds of a locator whose positions are up to date. -/
structure Located (as : Assemblies) (s : Locator) : Prop where
  line : ∃ g k, s.line = some g ∧ validIndex s.index g.line.cables.length = true ∧
    g.line.cables[s.index.toNat]? = some k ∧
    ∃ ds, List.Forall₂ (Reads as g) k.connections ds ∧ s.structures = ds.map Prod.fst ∧ s.lengths = ds.map Prod.snd
  fits : Fits s.structures s.lengths s.hardware
  points : s.points = placed s.structures s.hardware
  weight : ∃ w, s.weight = some w ∧ ∃ hs0 m, Fits s.structures s.lengths hs0 ∧ |m| < 5 ∧
    adjusted s.direction s.tension w (placed s.structures hs0) hs0 = some (s.hardware, m)

/-- The settings, which no query changes. -/
def SameSettings (s t : Locator) : Prop :=
  s.direction = t.direction ∧ s.index = t.index ∧ s.tension = t.tension ∧ s.weight = t.weight

theorem update_ok {s s' : Locator} {b : Bool} (h : s.update as = .ok s' b) :
    s'.isUpdated = b ∧ SameSettings s' s ∧
      (∃ g g', s.line = some g ∧ s'.line = some g' ∧ g'.line = g.line ∧ (g.isUpdated = true → g' = g)) ∧
      (b = true → Located as s' ∧ s'.update as = .ok s' true) := by
  have h' := h
  unfold update at h'
  match hg : s.line with
  | none => rw [hg] at h'; cases h'
  | some g =>
    rw [hg] at h'
    simp only at h'
    split at h'
    · cases h'
    · rename_i hi
      match hk : g.line.cables[s.index.toNat]? with
      | none => rw [hk] at h'; cases h'
      | some k =>
        rw [hk] at h'
        simp only at h'
        match hc : connectionLoop as k.connections g [] with
        | .ub => rw [hc] at h'; cases h'
        | .nan => rw [hc] at h'; cases h'
        | .throws (_, _) => rw [hc] at h'; cases h'
        | .ok (g', ds) false =>
          rw [hc] at h'
          obtain ⟨e1, e2, -⟩ := connectionLoop_ok _ hc
          cases h'
          exact ⟨rfl, ⟨rfl, rfl, rfl, rfl⟩, ⟨g, g', rfl, rfl, e1, e2⟩, by intro h; cases h⟩
        | .ok (g', ds) true =>
          rw [hc] at h'
          simp only at h'
          obtain ⟨e1, e2, e3, es, e4, e5⟩ := connectionLoop_ok _ hc
          rw [List.nil_append] at e4
          subst e4
          have e5 := e5 rfl
          match hh : initialHardware (ds.map Prod.fst) (ds.map Prod.snd), hw : s.weight with
          | none, _ => rw [hh] at h'; cases h'
          | some _, none => rw [hh, hw] at h'; cases h'
          | some hs, some w =>
            rw [hh, hw] at h'
            simp only at h'
            match hl : solveLoop s.direction s.tension w (ds.map Prod.fst) 100 hs with
            | none => rw [hl] at h'; cases h'
            | some (b', hs') =>
              rw [hl] at h'
              cases h'
              refine ⟨rfl, ⟨rfl, rfl, rfl, hw.symm⟩, ⟨g, g', rfl, rfl, e1, e2⟩, ?_⟩
              rintro rfl
              obtain ⟨f1, f2⟩ := solveLoop_fits 100 (initialHardware_fits hh) hl
              refine ⟨⟨⟨g', k, rfl, ?_, ?_, ds, ?_, rfl, rfl⟩, f1, rfl, ⟨w, rfl, f2 rfl⟩⟩, ?_⟩
              · rw [e1]; simpa using hi
              · rw [e1]; exact hk
              · obtain ⟨-, -, -, es', e6, e7⟩ := connectionLoop_ok _ e3
                rw [List.nil_append] at e6
                subst e6
                exact e7 rfl
              · unfold update
                simp only
                rw [e1, if_neg hi, hk]
                simp only
                rw [e3]
                simp only
                rw [hh]
                simp only
                rw [hl]

/-- An object that is up to date has the positions of its settings. -/
def Sound (as : Assemblies) (s : Locator) : Prop :=
  s.isUpdated = true → Located as s ∧ s.update as = .ok s true

theorem update_sound {s s' : Locator} {b : Bool} (h : s.update as = .ok s' b) : Sound as s' := by
  obtain ⟨e1, -, -, e2⟩ := update_ok h
  intro hu
  exact e2 (e1 ▸ hu)

/-- Queries whose bodies change nothing. -/
def Const {A : Type} (f : Locator → Run Locator A) : Prop := ∀ s s' a, f s = .ok s' a → s' = s

theorem ask_ok {A : Type} {s s' : Locator} {failed a : A} {f : Locator → Run Locator A} (hf : Const f)
    (hs : Sound as s) (h : s.ask as failed f = .ok s' a) :
    Sound as s' ∧ SameSettings s' s ∧ ((s'.isUpdated = true ∧ f s' = .ok s' a ∧ Located as s') ∨
      (s'.isUpdated = false ∧ a = failed)) := by
  unfold ask at h
  split at h
  · rename_i hu
    have := hf _ _ _ h
    subst this
    exact ⟨hs, ⟨rfl, rfl, rfl, rfl⟩, Or.inl ⟨hu, h, (hs hu).1⟩⟩
  · match hup : s.update as with
    | .ub => rw [hup] at h; cases h
    | .nan => rw [hup] at h; cases h
    | .throws _ => rw [hup] at h; cases h
    | .ok s1 b =>
      rw [hup] at h
      obtain ⟨e1, e2, -, e3⟩ := update_ok hup
      have h0 := update_sound hup
      cases b with
      | false =>
        simp only [Run.bind] at h
        rw [if_neg (by simp)] at h
        cases h
        exact ⟨h0, e2, Or.inr ⟨e1, rfl⟩⟩
      | true =>
        simp only [Run.bind, if_true] at h
        have := hf _ _ _ h
        subst this
        exact ⟨h0, e2, Or.inl ⟨e1, h, (e3 rfl).1⟩⟩

theorem attachment_const : Const (fun s => Run.ok s (some s.points)) := by
  intro s s' a h; cases h; rfl

open Classical in
theorem points_const (i num : ℤ) : Const (fun s : Locator =>
    if i < 0 ∨ (s.points.length : ℤ) - 1 < i then .ok s []
    else
      match s.points[i.toNat]?, s.points[i.toNat + 1]?, s.weight with
      | some p, some q, some w =>
        if 0 < num ∧ (s.tension = 0 ∨ w.magnitude = 0 ∨ (across p q).magnitude = 0) then .nan
        else .ok s (tracePoints (spanBetween s.direction s.tension w p q) p (across p q).angle num)
      | _, _, _ => .ub) := by
  intro s s' a h
  simp only at h
  split at h
  · cases h; rfl
  · split at h
    · split at h
      · cases h
      · cases h; rfl
    · cases h

/-- A call that is not a change of the line behind the locator's back. -/
def Call.Told : Call → Prop
  | .edited _ => False
  | _ => True

theorem next_sound {s s' : Locator} (hs : Sound as s) (k : Call) (hk : k.Told) (h : k.next as s = some s') :
    Sound as s' := by
  have hno : ∀ t : Locator, t.isUpdated = false → Sound as t := by
    intro t ht hu; rw [ht] at hu; cases hu
  cases k with
  | setDirection d => cases h; exact hno _ rfl
  | setIndex d => cases h; exact hno _ rfl
  | setTension d => cases h; exact hno _ rfl
  | setLine d => cases h; exact hno _ rfl
  | setWeight d => cases h; exact hno _ rfl
  | edited g => exact hk.elim
  | attachment =>
    simp only [Call.next] at h
    match hp : s.pointsAttachment as with
    | .ub => rw [hp] at h; cases h
    | .nan => rw [hp] at h; cases h
    | .throws _ => rw [hp] at h; cases h
    | .ok s1 a => rw [hp] at h; cases h; exact (ask_ok attachment_const hs hp).1
  | points i num =>
    simp only [Call.next] at h
    match hp : s.pointsCable as i num with
    | .ub => rw [hp] at h; cases h
    | .nan => rw [hp] at h; cases h
    | .throws _ => rw [hp] at h; cases h
    | .ok s1 a => rw [hp] at h; cases h; exact (ask_ok (points_const i num) hs hp).1
  | validate v =>
    simp only [Call.next] at h
    unfold Locator.validate at h
    simp only at h
    split at h
    · match hp : s.update as with
      | .ub => rw [hp] at h; cases h
      | .nan => rw [hp] at h; cases h
      | .throws _ => rw [hp] at h; cases h
      | .ok s1 a => rw [hp] at h; cases h; exact update_sound hp
    · rename_i g hg
      split at h
      · cases h
      · cases h
      · rename_i g1 b hv
        match hp : ({ s with line := some g1 } : Locator).update as with
        | .ub => rw [hp] at h; cases h
        | .nan => rw [hp] at h; cases h
        | .throws _ => rw [hp] at h; cases h
        | .ok s1 a => rw [hp] at h; cases h; exact update_sound hp

theorem run_sound : ∀ (ks : List Call) {s s' : Locator}, Sound as s → (∀ k ∈ ks, k.Told) → run as s ks = some s' →
    Sound as s'
  | [], s, s', hs, _, h => by cases h; exact hs
  | k :: ks, s, s', hs, hk, h => by
    unfold run at h
    match hn : k.next as s with
    | none => rw [hn] at h; cases h
    | some s1 =>
      rw [hn] at h
      exact run_sound ks (next_sound hs k (hk k (by simp)) hn) (fun k' hk' => hk k' (by simp [hk'])) h

theorem new_sound : Sound as Locator.new := by intro h; cases h

/-- An update does not look at the results of earlier ones. -/
theorem update_settings {s t : Locator} (h : SameSettings s t) (hl : s.line = t.line) :
    Run.Rel (fun b s' t' => SameSettings s' t' ∧ s'.line = t'.line ∧ s'.isUpdated = t'.isUpdated ∧
      (b = true → s'.points = t'.points)) (s.update as) (t.update as) := by
  obtain ⟨h1, h2, h3, h4⟩ := h
  unfold update
  rw [hl, h1, h2, h3, h4]
  match t.line with
  | none => exact trivial
  | some g =>
    simp only
    split
    · exact trivial
    · match g.line.cables[t.index.toNat]? with
      | none => exact trivial
      | some k =>
        simp only
        match connectionLoop as k.connections g [] with
        | .ub => exact trivial
        | .nan => exact trivial
        | .throws (_, _) => exact trivial
        | .ok (g', ds) false => exact ⟨rfl, ⟨rfl, rfl, rfl, rfl⟩, rfl, rfl, by intro h; cases h⟩
        | .ok (g', ds) true =>
          simp only
          match initialHardware (ds.map Prod.fst) (ds.map Prod.snd), t.weight, h4 with
          | none, _, _ => exact trivial
          | some _, none, _ => exact trivial
          | some hs, some w, h4 =>
            simp only
            match solveLoop t.direction t.tension w (ds.map Prod.fst) 100 hs with
            | none => exact trivial
            | some (b, hs') => exact ⟨rfl, ⟨rfl, rfl, rfl, rfl⟩, rfl, rfl, fun _ => rfl⟩

end Locator
end Verif
