import Verif.Double
import Verif.Outcome

/-!
# The search of `sagging/transit_sagger.cc` in `double` arithmetic

The positions on the cable, the tolerance and the end of the search of `TransitSagger::UpdatePointCatenaryLow`, every
operation being rounded.  The angle from the transit to the cable is a parameter: an arbitrary function of the
position, `none` being a NaN, for which every comparison is false.  So what is proved holds however
`Catenary3d::Coordinate` and `AngleVertical` are computed.
-/

namespace Verif.Double.Transit

/-- The distance of the positions, `transit_sagger.cc` L194, for the 11 points the function is called with; also the
tolerance, L260. -/
noncomputable def precision (back ahead : ℝ) : ℝ := rnd (rnd (ahead - back) / 10)

/-- `positions[i]`, `transit_sagger.cc` L197-199. -/
noncomputable def position (back ahead : ℝ) (i : ℕ) : ℝ := rnd (back + rnd (i * precision back ahead))

open Classical in
/-- The scan, `transit_sagger.cc` L207-216: the lowest angle so far and its index; `none` is the initial index -9999. -/
noncomputable def scan (angle : ℕ → Option ℝ) : List ℕ → ℝ → Option ℕ → Option ℕ
  | [], _, j => j
  | i :: is, low, j =>
    match angle i with
    | none => scan angle is low j
    | some a => if a < low then scan angle is a (some i) else scan angle is low j

/-- `PositionCatenaryLowAngle`, `transit_sagger.cc` L189-219.  Reading `positions[-9999]` is undefined behaviour. -/
noncomputable def positionLowAngle (angle : ℝ → Option ℝ) (back ahead : ℝ) : Res ℝ :=
  match scan (fun i => angle (position back ahead i)) (List.range 11) 999999 none with
  | some j => .val (position back ahead j)
  | none => .ub

open Classical in
/-- The next `position_back`, `transit_sagger.cc` L263-266. -/
noncomputable def nextBack (position tolerance : ℝ) : ℝ :=
  if rnd (position - tolerance) < 0 then 0 else rnd (position - tolerance)

open Classical in
/-- The next `position_ahead`, `transit_sagger.cc` L269-272. -/
noncomputable def nextAhead (position tolerance : ℝ) : ℝ :=
  if 1 < rnd (position + tolerance) then 1 else rnd (position + tolerance)

open Classical in
/-- The loop of `UpdatePointCatenaryLow`, `transit_sagger.cc` L254-273, cut off after `fuel` passes (`none`).  The
counter `i` of the code is never incremented, so `i < 10` always holds. -/
noncomputable def search (angle : ℝ → Option ℝ) : ℕ → ℝ → ℝ → ℝ → ℝ → Option (Res ℝ)
  | fuel, tolerance, back, ahead, position =>
    if rnd 0.00001 < tolerance then
      match fuel with
      | 0 => none
      | n + 1 =>
        match positionLowAngle angle back ahead with
        | .val position =>
          search angle n (precision back ahead) (nextBack position (precision back ahead))
            (nextAhead position (precision back ahead)) position
        | .throws => some .throws
        | .ub => some .ub
    else some (.val position)

/-- The loop from its initial values, `transit_sagger.cc` L246-273. -/
noncomputable def searchFrom (angle : ℝ → Option ℝ) (fuel : ℕ) : Option (Res ℝ) :=
  search angle fuel (rnd (rnd (1 - 0) / 2)) 0 1 (-999999)

open Classical in
/-- `UpdatePointCatenaryLow`, `transit_sagger.cc` L246-287: whether the position found is taken, and the position. -/
noncomputable def updatePoint (angle : ℝ → Option ℝ) (fuel : ℕ) : Option (Res (Bool × ℝ)) :=
  match searchFrom angle fuel with
  | none => none
  | some .ub => some .ub
  | some .throws => some .throws
  | some (.val p) => if p = 0 ∨ p = 1 then some (.val (false, -999999)) else some (.val (true, p))

end Verif.Double.Transit
