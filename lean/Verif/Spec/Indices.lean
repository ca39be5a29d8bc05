import Verif.Model.Indices

/-!
# A house with given indices
-/

namespace HLC.Spec

open HLC.Conv

/-- The kinds of general parts to which the heat loss can be distributed. -/
def kindOf : GPType → Option PT
  | .roof => some .roof
  | .ceiling => some .ceiling
  | .wall => some .wall
  | .floor => some .floor
  | .boundaryWall => some .boundaryWall
  | .upwardBoundaryFloor => none
  | .downwardBoundaryFloor => none

/-- The U value of a general part, when the U values of the kinds are `u`. -/
noncomputable def uOf (u : PT → ℝ) (t : GPType) : ℝ := ((kindOf t).map u).getD 0

/-- The parts `p` with U values `u` by kind and windows that let `etaH` and `etaC` of the sun in, in the two seasons. -/
noncomputable def equip (p : HouseNoSpec) (u : PT → ℝ) (etaH etaC : ℝ) : Envelope where
  gps := p.gps.map fun s => { s with spec := .other s.type (uOf u s.type) "light" }
  ws := p.ws.map fun s => { s with spaceType := .undefined, spec := { u := u .window, etaDH := etaH, etaDC := etaC, glass := .single, flame := .metal } }
  ds := p.ds.map fun s => { s with u := u .door }
  eps := p.eps.map fun s => { s with psi := u .earthfloorPerimeter }
  ecs := p.ecs.map fun s => { s with layers := .list [] }

/-- Parts whose heat loss can be distributed: the kinds are known, parts towards outdoor air have no shade
specified, and the areas of the parts of each kind, weighted with the temperature difference coefficient of the space
behind, add up to something that is not negative. -/
structure Distributable (region : ℤ) (p : HouseNoSpec) : Prop where
  kinds : ∀ g ∈ p.gps, kindOf g.type ≠ none
  gpShade : ∀ g ∈ p.gps, g.nextSpace = .outdoor → g.sunshade = .notInput
  doorShade : ∀ g ∈ p.ds, g.nextSpace = .outdoor → g.sunshade = .notInput
  area : 0 < (p.gps.map (·.area)).sum + (p.ws.map (·.area)).sum + (p.ds.map (·.area)).sum + (p.ecs.map (·.area)).sum
  gps : ∀ h : NextSpace → ℝ, (∀ s : NextSpace, s.getH region = .ok (h s)) → ∀ t, 0 ≤ ((p.gps.filter fun g => g.type = t).map fun g => g.area * h g.nextSpace).sum
  ws : ∀ h : NextSpace → ℝ, (∀ s : NextSpace, s.getH region = .ok (h s)) → 0 ≤ (p.ws.map fun g => g.area * h g.nextSpace).sum
  ds : ∀ h : NextSpace → ℝ, (∀ s : NextSpace, s.getH region = .ok (h s)) → 0 ≤ (p.ds.map fun g => g.area * h g.nextSpace).sum
  eps : ∀ h : NextSpace → ℝ, (∀ s : NextSpace, s.getH region = .ok (h s)) → 0 ≤ (p.eps.map fun g => g.length * h g.nextSpace).sum

/-- The input `d` describes a house of the given type by its floor area, its envelope area and its indices. -/
structure IndexInput (d : PyVal) (houseType : String) (aF aEnv uA etaAH etaAC : ℝ) : Prop where
  houseType : (do (← d.get "common").getStr "house_type") = .ok houseType
  aF : (do (← d.get "common").getNum "total_floor_area") = .ok aF
  aEnv : (do (← d.get "envelope").getNum "total_area") = .ok aEnv
  uA : (do (← (← d.get "envelope").get "indices").getNum "u_a") = .ok uA
  etaAH : (do (← (← d.get "envelope").get "indices").getNum "eta_a_h") = .ok etaAH
  etaAC : (do (← (← d.get "envelope").get "indices").getNum "eta_a_c") = .ok etaAC

end HLC.Spec
