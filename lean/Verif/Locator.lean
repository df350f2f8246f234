import Verif.LineGeometry
import Verif.Catenary3d
import Verif.LineLoader

/-!
# Model of `cable_attachment_equilibrium_solver.cc` and `cable_position_locator.cc`

Pointers are modelled by the contents pointed to, `none` being the null pointer; the transmission line is assumed to be
changed only by the queries the locator makes and by setting it again.  Exact real arithmetic.  `Run.nan` is a call in
which a division by zero makes a coordinate or a tension NaN or infinite; nothing is claimed about what follows.

The length of a hardware assembly is not part of `Hardware` in `Verif/LineStructure.lean`; `Assemblies` gives it for
the assembly attached to a structure.
-/

namespace Verif

/-- The object after a call that returns normally. -/
def Run.returned {S A : Type} : Run S A → Option S
  | .ok s _ => some s
  | _ => none

/-- The members of `CableAttachmentEquilibriumSolver` (the cable and hardware tensions are only used inside
`Update`). -/
structure EquilibriumSolver where
  angleCatenaries : ℝ
  angleHardware : ℝ
  angleEquilibrium : ℝ
  ahead : Option Catenary3d
  back : Option Catenary3d
  direction : Direction
  imbalance : V3
  isUpdated : Bool

namespace EquilibriumSolver

/-- Constructor, `cable_attachment_equilibrium_solver.cc` L8-17. -/
noncomputable def new : EquilibriumSolver :=
  ⟨-999999, -999999, -999999, none, none, .null, ⟨-999999, -999999, -999999⟩, false⟩

/-- `set_angle_catenaries`, L134-138. -/
def setAngleCatenaries (s : EquilibriumSolver) (a : ℝ) : EquilibriumSolver :=
  { s with angleCatenaries := a, isUpdated := false }
/-- `set_angle_hardware`, L140-144. -/
def setAngleHardware (s : EquilibriumSolver) (a : ℝ) : EquilibriumSolver :=
  { s with angleHardware := a, isUpdated := false }
/-- `set_catenary_ahead`, L146-150. -/
def setAhead (s : EquilibriumSolver) (k : Option Catenary3d) : EquilibriumSolver :=
  { s with ahead := k, isUpdated := false }
/-- `set_catenary_back`, L152-156. -/
def setBack (s : EquilibriumSolver) (k : Option Catenary3d) : EquilibriumSolver :=
  { s with back := k, isUpdated := false }
/-- `set_direction_catenaries`, L158-162. -/
def setDirection (s : EquilibriumSolver) (d : Direction) : EquilibriumSolver :=
  { s with direction := d, isUpdated := false }

/-- The sum of the two cable tensions in the solver's coordinates, L175-203. -/
noncomputable def tensionCable (angle : ℝ) (direction : Direction) (back ahead : Catenary3d) : V3 :=
  let rotate := (180 - angle) / 2
  let b := (back.tensionVector 1 .negative).rotate .xy (if direction = .positive then rotate * -1 else rotate)
  let a := (ahead.tensionVector 0 .positive).rotate .xy (if direction = .positive then rotate else rotate * -1)
  ⟨b.x + a.x, b.y + a.y, b.z + a.z⟩

/-- The tension of the hardware, L205-218: as large as that of the cable, along the hardware. -/
noncomputable def tensionHardware (angle : ℝ) (direction : Direction) (cable : V3) : V3 :=
  let u := (V3.mk 0 0 1).rotate .zy (if direction = .positive then angle else 360 - angle)
  (u.scale cable.magnitude).rotate .zy 180

/-- `Update`, L168-235, which always succeeds; a null catenary is dereferenced. -/
noncomputable def update (s : EquilibriumSolver) : Outcome EquilibriumSolver Bool :=
  match s.back, s.ahead with
  | some b, some a =>
    let t := tensionCable s.angleCatenaries s.direction b a
    let h := tensionHardware s.angleHardware s.direction t
    .ok { s with
      imbalance := ⟨-1 * (h.x + t.x), -1 * (h.y + t.y), -1 * (h.z + t.z)⟩
      angleEquilibrium := if s.direction = .positive then t.angle .zy else 360 - t.angle .zy
      isUpdated := true } true
  | _, _ => .ub

/-- The prologue of the queries, L24-26. -/
noncomputable def ask (s : EquilibriumSolver) (f : EquilibriumSolver → ℝ) : Outcome EquilibriumSolver ℝ :=
  if s.isUpdated = true then .ok s (f s)
  else
    match s.update with
    | .ok s true => .ok s (f s)
    | .ok s false => .ok s (-999999)
    | .throws s => .throws s
    | .ub => .ub

/-- `AngleEquilibrium`, L22-29. -/
noncomputable def angleEquilibriumQ (s : EquilibriumSolver) : Outcome EquilibriumSolver ℝ :=
  s.ask fun s => s.angleEquilibrium
/-- `TensionImbalance`, L31-38. -/
noncomputable def tensionImbalance (s : EquilibriumSolver) : Outcome EquilibriumSolver ℝ :=
  s.ask fun s => s.imbalance.magnitude

/-- Validation of a catenary that may be missing, L66-90. -/
noncomputable def validateCatenary (k : Option Catenary3d) (missing : String) : Bool × List String :=
  match k with
  | none => (false, [missing])
  | some k => k.validate

open Classical in
/-- `Validate`, L40-111. -/
noncomputable def validate (s : EquilibriumSolver) : Outcome EquilibriumSolver (Bool × List String) :=
  let m1 := if s.angleCatenaries < 0 ∨ 180 < s.angleCatenaries then ["Invalid angle between catenaries"] else []
  let m2 := if s.angleHardware < 0 ∨ 180 < s.angleHardware then ["Invalid hardware angle"] else []
  let a := validateCatenary s.ahead "Invalid ahead catenary"
  let b := validateCatenary s.back "Invalid back catenary"
  let m3 := if s.direction = .null then ["Invalid catenary direction"] else []
  match s.update with
  | .ok s u => .ok s ((m1 ++ m2 ++ m3).isEmpty && a.1 && b.1 && u,
      m1 ++ m2 ++ a.2 ++ b.2 ++ m3 ++ (if u = true then [] else ["Error updating class."]))
  | .throws s => .throws s
  | .ub => .ub

end EquilibriumSolver

/-- The lengths of the hardware assemblies: `Hardware::length` of the one attached to the structure at an address. -/
abbrev Assemblies := Ptr → ℕ → ℝ

/-- `SphericalPoint3d`, `include/models/base/point.h`. -/
structure Spherical where
  radius : ℝ
  angleX : ℝ
  angleZ : ℝ

namespace Spherical

/-- Cartesian coordinates, `cable_position_locator.cc` L412-427. -/
noncomputable def offset (p : Spherical) : P3 :=
  let x := toRadians p.angleX
  let z := toRadians p.angleZ
  ⟨p.radius * Real.cos x * Real.sin z, p.radius * Real.sin x * Real.sin z, p.radius * Real.cos z⟩

end Spherical

/-- The members of `CablePositionLocator`; `size_connections_` is the length of the containers, and the hardware
assemblies are reduced to their lengths. -/
structure Locator where
  direction : Direction
  index : ℤ
  line : Option GLine
  tension : ℝ
  weight : Option V3
  lengths : List ℝ
  structures : List P3
  hardware : List Spherical
  points : List P3
  isUpdated : Bool

namespace Locator

/-- Constructor, `cable_position_locator.cc` L11-20. -/
noncomputable def new : Locator := ⟨.null, -9999, none, -999999, none, [], [], [], [], false⟩

/-- `set_direction_wind`, L197-201. -/
def setDirection (s : Locator) (d : Direction) : Locator := { s with direction := d, isUpdated := false }
/-- `set_index_line_cable`, L203-206. -/
def setIndex (s : Locator) (i : ℤ) : Locator := { s with index := i, isUpdated := false }
/-- `set_tension_horizontal`, L208-212. -/
def setTension (s : Locator) (h : ℝ) : Locator := { s with tension := h, isUpdated := false }
/-- `set_transmission_line`, L214-217. -/
def setLine (s : Locator) (g : Option GLine) : Locator := { s with line := g, isUpdated := false }
/-- `set_weight_unit`, L219-222. -/
def setWeight (s : Locator) (w : Option V3) : Locator := { s with weight := w, isUpdated := false }

/-- What one connection contributes, L249-277: the attachment point on the structure and the length of the assembly;
`none` for a connection that is rejected.  The connected structure belongs to the line when its index is found. -/
noncomputable def connectionData (as : Assemblies) (g : GLine) (c : Connection) : Run GLine (Option (P3 × ℝ)) :=
  let i := g.line.indexLineStructure c.ptr
  match g.pointXyzLineStructureAttachment i c.attachment with
  | .ub => .ub
  | .throws g => .throws g
  | .ok _ none => .nan
  | .ok g (some p) =>
    open Classical in
    if p.x = -999999 then .ok g none
    else
      match g.line.structures[i.toNat]? with
      | none => .ub
      | some (_, s) =>
        if validIndex c.attachment s.hardwares.length = false then .throws g
        else
          match s.hardwares[c.attachment.toNat]? with
          | some (some _) => .ok g (some (p, as c.ptr c.attachment.toNat))
          | _ => .ok g none

/-- `InitializeConnectionData`, L246-280, from the loop on; the data of the connections so far are kept.  The rest of
the containers then holds default values, which nothing reads. -/
noncomputable def connectionLoop (as : Assemblies) : List Connection → GLine → List (P3 × ℝ) →
    Run (GLine × List (P3 × ℝ)) Bool
  | [], g, ds => .ok (g, ds) true
  | c :: cs, g, ds =>
    match connectionData as g c with
    | .ok g (some d) => connectionLoop as cs g (ds ++ [d])
    | .ok g none => .ok (g, ds) false
    | .throws g => .throws (g, ds)
    | .ub => .ub
    | .nan => .nan

/-- The horizontal vector between two points, L325-327 and others. -/
def across (p q : P3) : V2 := ⟨q.x - p.x, q.y - p.y⟩

open Classical in
/-- The bisecting direction at a structure, L323-337; `none` if a span has no horizontal length. -/
noncomputable def bisector (back current ahead : P3) : Option V2 :=
  let b := across current back
  let a := across current ahead
  if b.magnitude = 0 ∨ a.magnitude = 0 then none
  else
    let b := b.scale (1 / b.magnitude)
    let a := a.scale (1 / a.magnitude)
    some ⟨b.x + a.x, b.y + a.y⟩

/-- One step of `InitializePointsHardware`, L308-350. -/
noncomputable def initialAt (ps : List P3) (ls : List ℝ) (i : ℕ) : Option Spherical :=
  if i = 0 ∨ i = ps.length - 1 then some ⟨0, 0, 0⟩
  else
    match ps[i - 1]?, ps[i]?, ps[i + 1]?, ls[i]? with
    | some b, some c, some a, some l => (bisector b c a).map fun v => ⟨l, v.angle, 180⟩
    | _, _, _, _ => none

/-- `InitializePointsHardware`, L306-353. -/
noncomputable def initialHardware (ps : List P3) (ls : List ℝ) : Option (List Spherical) :=
  (List.range ps.length).mapM (initialAt ps ls)

/-- One cable attachment point, L409-433. -/
noncomputable def place (p : P3) (h : Spherical) : P3 :=
  ⟨h.offset.x + p.x, h.offset.y + p.y, h.offset.z + p.z⟩

/-- `UpdatePointsCable`, L406-437. -/
noncomputable def placed (ps : List P3) (hs : List Spherical) : List P3 := List.zipWith place ps hs

/-- A catenary between two attachment points, L470-486 and L44-54. -/
noncomputable def spanBetween (d : Direction) (h : ℝ) (w : V3) (p q : P3) : Catenary3d :=
  (((Catenary3d.new.setDirection d).setTension h).setWeight w).setSpacing ⟨(across p q).magnitude, 0, q.z - p.z⟩

/-- The angle between the spans at a point as the code takes it, L488-506: no account is taken of angles beyond 180
degrees. -/
noncomputable def angleBetween (back current ahead : P3) : ℝ :=
  |((across current ahead).scale (1 / (across current ahead).magnitude)).angle - (across current back).angle|

/-- The line angle's direction, L503-511. -/
noncomputable def lineDirection (angle : ℝ) : Direction :=
  open Classical in if angle ≤ 180 then .positive else .negative

/-- The solver at one point, L513-521; the code's is reused, with all five settings made again. -/
noncomputable def equilibriumAt (d : Direction) (h : ℝ) (w : V3) (back current ahead : P3) (z : ℝ) :
    EquilibriumSolver :=
  ((((EquilibriumSolver.new.setAngleCatenaries (angleBetween back current ahead)).setAngleHardware z).setBack
    (some (spanBetween d h w back current))).setAhead (some (spanBetween d h w current ahead))).setDirection
    (lineDirection (angleBetween back current ahead))

open Classical in
/-- One step of `UpdatePointsHardware`, L457-531: the new hardware point and the imbalance, if the point is not at an
end. -/
noncomputable def adjustAt (d : Direction) (h : ℝ) (w : V3) (qs : List P3) (hs : List Spherical) (i : ℕ) :
    Option (Spherical × ℝ) :=
  match hs[i]? with
  | none => none
  | some p =>
    if i = 0 ∨ i = qs.length - 1 then some (p, 0)
    else
      match qs[i - 1]?, qs[i]?, qs[i + 1]? with
      | some b, some c, some a =>
        if h = 0 ∨ w.magnitude = 0 ∨ (across b c).magnitude = 0 ∨ (across c a).magnitude = 0 then none
        else
          match (equilibriumAt d h w b c a p.angleZ).angleEquilibriumQ with
          | .ok s z =>
            match s.tensionImbalance with
            | .ok _ t => some ({ p with angleZ := z }, t)
            | _ => none
          | _ => none
      | _, _, _ => none

/-- `UpdatePointsHardware`, L439-534: the new hardware points and the largest imbalance. -/
noncomputable def adjusted (d : Direction) (h : ℝ) (w : V3) (qs : List P3) (hs : List Spherical) :
    Option (List Spherical × ℝ) :=
  ((List.range qs.length).mapM (adjustAt d h w qs hs)).map fun rs =>
    (rs.map Prod.fst, rs.foldl (fun m r => if m < r.2 then r.2 else m) 0)

/-- The loop of `SolveCablePosition`, L364-380; `fuel` is the number of iterations left. -/
noncomputable def solveLoop (d : Direction) (h : ℝ) (w : V3) (ps : List P3) :
    ℕ → List Spherical → Option (Bool × List Spherical)
  | 0, hs => some (false, hs)
  | fuel + 1, hs =>
    match adjusted d h w (placed ps hs) hs with
    | none => none
    | some (hs', m) =>
      open Classical in
      if 5 ≤ |m| then solveLoop d h w ps fuel hs' else some (decide (0 < fuel), hs')

/-- `Update`, L383-404 with L236-304.  A null line or an index that is not that of a line cable is UB (L285), as is a
missing unit weight (L445).  L385 sets the flag before the connections are read, so an exception
leaves it set. -/
noncomputable def update (as : Assemblies) (s : Locator) : Run Locator Bool :=
  match s.line with
  | none => .ub
  | some g =>
    if validIndex s.index g.line.cables.length = false then .ub
    else
      match g.line.cables[s.index.toNat]? with
      | none => .ub
      | some k =>
        match connectionLoop as k.connections g [] with
        | .ub => .ub
        | .nan => .nan
        | .throws (g, ds) => .throws { s with
            line := some g, structures := ds.map Prod.fst, lengths := ds.map Prod.snd
            points := List.replicate k.connections.length P3.default, isUpdated := true }
        | .ok (g, ds) false => .ok { s with
            line := some g, structures := ds.map Prod.fst, lengths := ds.map Prod.snd, isUpdated := false } false
        | .ok (g, ds) true =>
          match initialHardware (ds.map Prod.fst) (ds.map Prod.snd), s.weight with
          | none, _ => .nan
          | some _, none => .ub
          | some hs, some w =>
            match solveLoop s.direction s.tension w (ds.map Prod.fst) 100 hs with
            | none => .nan
            | some (b, hs) => .ok { s with
                line := some g, structures := ds.map Prod.fst, lengths := ds.map Prod.snd, hardware := hs
                points := placed (ds.map Prod.fst) hs, isUpdated := b } b

/-- The prologue of the queries, L30-33. -/
noncomputable def ask {A : Type} (as : Assemblies) (s : Locator) (failed : A) (f : Locator → Run Locator A) :
    Run Locator A :=
  if s.isUpdated = true then f s
  else (s.update as).bind fun s b => if b = true then f s else .ok s failed

/-- `PointsCableAttachment`, L85-94; `none` is the null pointer. -/
noncomputable def pointsAttachment (as : Assemblies) (s : Locator) : Run Locator (Option (List P3)) :=
  s.ask as none fun s => .ok s (some s.points)

/-- One point of a span, L61-73: `f` is the position fraction. -/
noncomputable def pointAt (k : Catenary3d) (p : P3) (angle f : ℝ) : P3 :=
  let c := k.coordinate f
  let v := (V2.mk c.x c.y).rotate angle
  ⟨p.x + v.x, p.y + v.y, p.z + c.z⟩

/-- The points of a span, L40-82.  With one point the increment is an infinity that is not used. -/
noncomputable def tracePoints (k : Catenary3d) (p : P3) (angle : ℝ) (num : ℤ) : List P3 :=
  (List.range num.toNat).map fun i : ℕ => pointAt k p angle ((i : ℝ) * (1 / ((num : ℝ) - 1)))

open Classical in
/-- `PointsCable`, L25-83: the guard of L36 lets the last attachment point pass, and the access at L42 is then out of
bounds. -/
noncomputable def pointsCable (as : Assemblies) (s : Locator) (i num : ℤ) : Run Locator (List P3) :=
  s.ask as [] fun s =>
    if i < 0 ∨ (s.points.length : ℤ) - 1 < i then .ok s []
    else
      match s.points[i.toNat]?, s.points[i.toNat + 1]?, s.weight with
      | some p, some q, some w =>
        if 0 < num ∧ (s.tension = 0 ∨ w.magnitude = 0 ∨ (across p q).magnitude = 0) then .nan
        else .ok s (tracePoints (spanBetween s.direction s.tension w p q) p (across p q).angle num)
      | _, _, _ => .ub

/-- The unit weight's part of `Validate`, L143-175. -/
noncomputable def validWeight (w : Option V3) : Bool :=
  open Classical in
  match w with
  | none => false
  | some w => decide (w.x = 0 ∧ 0 ≤ w.y ∧ 0 < w.z)

/-- `Validate`, L96-187; `verdict` is the line's own (its `Validate` also updates it), and missing inputs do not keep it
from `Update`. -/
noncomputable def validate (as : Assemblies) (verdict : GLine → Bool) (s : Locator) : Run Locator Bool :=
  open Classical in
  let a := decide (s.direction ≠ .null ∧ 0 ≤ s.index ∧ 0 < s.tension) && validWeight s.weight
  match s.line with
  | none => s.update as
  | some g =>
    match g.validateUpdate with
    | .ub => .ub
    | .throws g => .throws { s with line := some g }
    | .ok g b => (({ s with line := some g } : Locator).update as).bind fun s u =>
        .ok s (a && verdict g && b && u)

/-- The calls a user can make; `edited` is a change of the line the locator points to. -/
inductive Call where
  | setDirection (d : Direction)
  | setIndex (i : ℤ)
  | setTension (h : ℝ)
  | setLine (g : Option GLine)
  | setWeight (w : Option V3)
  | attachment
  | points (i num : ℤ)
  | validate (verdict : GLine → Bool)
  | edited (g : GLine)

/-- The object after a call that returns. -/
noncomputable def Call.next (as : Assemblies) : Call → Locator → Option Locator
  | .setDirection d, s => some (s.setDirection d)
  | .setIndex i, s => some (s.setIndex i)
  | .setTension h, s => some (s.setTension h)
  | .setLine g, s => some (s.setLine g)
  | .setWeight w, s => some (s.setWeight w)
  | .attachment, s => (s.pointsAttachment as).returned
  | .points i num, s => (s.pointsCable as i num).returned
  | .validate verdict, s => (s.validate as verdict).returned
  | .edited g, s => some { s with line := some g }

/-- The object after a list of calls that return. -/
noncomputable def run (as : Assemblies) : Locator → List Call → Option Locator
  | s, [] => some s
  | s, k :: ks => (k.next as s).bind fun s' => run as s' ks

end Locator

end Verif
