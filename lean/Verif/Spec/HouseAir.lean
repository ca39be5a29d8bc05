import Mathlib.Data.Real.Basic
import Mathlib.Algebra.BigOperators.Group.List.Basic

/-!
# Ventilation of a house
-/

namespace HLC.Spec

/-- A room with its floor area, the air it takes from outdoors and the air it sends on to the non-occupied rooms. -/
structure AirRoom where
  floor : ℝ
  outdoor : ℝ
  onward : ℝ

/-- Outdoor air of a house: 2.4 m ceiling height, 10 % reserve. -/
noncomputable def houseAir (floorArea changesPerHour : ℝ) : ℝ := floorArea * 2.4 * changesPerHour * 1.1

/-- The occupied rooms share the outdoor air in proportion to their floor areas, nothing is lost or added, and each room
sends on what it took in, so that what leaves through the non-occupied rooms is what came in. -/
structure AirBalanced (rooms : List AirRoom) (total exhaust : ℝ) : Prop where
  share : ∀ r ∈ rooms, ∀ s ∈ rooms, r.outdoor * s.floor = s.outdoor * r.floor
  supply : (rooms.map (·.outdoor)).sum = total
  passes : ∀ r ∈ rooms, r.onward = r.outdoor
  exhaust : (rooms.map (·.onward)).sum = exhaust

end HLC.Spec
