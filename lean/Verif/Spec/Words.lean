import Verif.Spec.Initializer
import Verif.Spec.Lv4Parts

/-!
# Specification: the words of an input (C114)
-/

namespace HLC.Spec

/-- The points of the compass in the order of the sun's azimuth, from the south over the west. -/
def points : List String := ["s", "sw", "w", "nw", "n", "ne", "e", "se"]

/-- The azimuth of point number `k`, in degrees: 45 degrees from point to point, west positive and east negative, the north at 180. -/
noncomputable def pointAzimuth (k : ℕ) : ℝ := if k ≤ 4 then 45 * k else 45 * k - 360

/-- Azimuth and tilt in degrees that a direction stands for. -/
def Turned (direction : String) (azimuth tilt : ℝ) : Prop :=
  (∃ k, points[k]? = some direction ∧ azimuth = pointAzimuth k ∧ tilt = 90) ∨ (direction = "top" ∧ azimuth = 0 ∧ tilt = 0) ∨
    (direction = "bottom" ∧ azimuth = 0 ∧ tilt = 180)

/-- The place that stands for each region, from the coldest to the warmest: latitude and longitude in degrees of Kitami, Iwamizawa, Morioka, Nagano, Utsunomiya,
Okayama, Miyazaki and Naha. -/
noncomputable def places : List (ℝ × ℝ) :=
  [(43.82, 143.91), (43.21, 141.79), (39.70, 141.17), (36.66, 138.20), (36.55, 139.87), (34.66, 133.92), (31.94, 131.42), (26.21, 127.685)]

/-- The kinds of parts. -/
def partWords : List String := ["internal", "external_general_part", "external_transparent_part", "external_opaque_part", "ground"]

/-- The groups of glass at level 4 with the solar gain coefficients without shade, with a paper screen and with an outside blind. -/
noncomputable def glassGroups : List (List String × ℝ × ℝ × ℝ) :=
  [(["3WgG"], 0.54, 0.34, 0.12), (["3WsG"], 0.33, 0.22, 0.08), (["3LgG"], 0.59, 0.37, 0.14), (["3LsG"], 0.37, 0.25, 0.10),
   (["2LgG"], 0.64, 0.38, 0.15), (["2LsG"], 0.40, 0.26, 0.11),
   (["2FAheatreflect1", "2FAheatreflect2", "2FAheatreflect3", "2FAheatabsorb2", "2FAmulti", "2FAsingle"], 0.79, 0.38, 0.17),
   (["Theatreflect1", "Theatreflect2", "Theatreflect3", "Theatabsorb2", "Tsingle"], 0.88, 0.38, 0.19)]

/-- The frame factor. -/
def FrameFactor (frame : String) (f : ℝ) : Prop := (frame = "WoodOrResin" ∧ f = 0.72) ∨ (frame = "Steel" ∧ f = 0.8)

/-- The coefficient of a glass with a shade. -/
def GlassCoefficient (glass shade : String) (e : ℝ) : Prop :=
  ∃ g ∈ glassGroups, glass ∈ g.1 ∧ ((shade = "None" ∧ e = g.2.1) ∨ (shade = "Shoji" ∧ e = g.2.2.1) ∨ (shade = "ExtarnalBlind" ∧ e = g.2.2.2))

end HLC.Spec
