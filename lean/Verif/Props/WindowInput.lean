import Verif.Props.Window
import Verif.Model.Boundary
import Verif.Lemmas.Except

/-!
# C47: the solar gain of a window as described in the input
-/

namespace HLC.Init

/-- The two kinds of glazing: transmittance at an angle of incidence and for diffuse radiation. -/
def Glazed (g : String) (tau : ℝ → ℝ) (cd : ℝ) : Prop := (g = "single" ∧ tau = tauSingle ∧ cd = 0.900) ∨ (g = "multiple" ∧ tau = tauDouble ∧ cd = 0.832)

/-- **C47 (window of the input).** For a sun-struck window below an overhang, the solar gain the initializer works out in every step is that of
the window's own area, direction, glazing and transmittance, with the direct and the sky radiation shaded by the overhang of the input. -/
theorem C47_window {w : List Step} {b : BoundaryDict} {x : Bs} (H : getBoundarySimple w b = .ok x)
    (hb : b.boundaryType = "external_transparent_part") (hs : b.isSunStruck = some true) {dir : String} (hd : b.direction = some dir)
    {ab : ℝ × ℝ} (hab : angles dir = .ok ab) {g : String} (hg : b.glazing = some g) {eta : ℝ} (he : b.eta = some eta) {ssp : ShadingDict}
    (hp : b.shading = some ssp) (hex : ssp.existence = true) (him : ssp.inputMethod = some "simple") {z dh de : ℝ} (hz : ssp.depth = some z)
    (hdh : ssp.dH = some dh) (hde : ssp.dE = some de) {tau : ℝ → ℝ} {cd : ℝ} (hgl : Glazed g tau cd) :
    x.qTrsSol = w.map fun s => eta * b.area * (
      (1 - shadeDirect ab.1 z dh de s.hSun s.aSun) * tau (incidence s.hSun s.aSun ab.1 ab.2) * (irradiance s ab.1 ab.2).direct
        + (1 - shadeSky z dh de) * cd * (irradiance s ab.1 ab.2).sky + cd * (irradiance s ab.1 ab.2).reflected) := by
  simp only [getBoundarySimple, bind_ok_iff] at H
  obtain ⟨_, _, _, _, _, _, _, _, _, _, _, _, _, _, p, hpc, _, _, _, _, tr, htr, q, hq, e⟩ := H
  have hx : x.qTrsSol = q := by rw [← Except.ok.inj e]
  rw [hx]
  have h1 := ((C47_selection b ssp hp).1 (by rw [hb]; rfl) hs hex dir ab hd hab).1 z dh de him hz hdh hde
  obtain rfl : p = .simple ab.1 z dh de := Except.ok.inj (hpc.symm.trans h1)
  have h2 : Transmission.create b (.simple ab.1 z dh de) = .ok (.struck dir b.area (.simple ab.1 z dh de) g eta) := by
    simp [Transmission.create, hb, hs, hd, hg, he, key, bind, Except.bind]
  obtain rfl : tr = .struck dir b.area (.simple ab.1 z dh de) g eta := Except.ok.inj (htr.symm.trans h2)
  simp only [Transmission.series, hab, bind, Except.bind] at hq
  have h3 := mapM_ok_iff.1 hq
  symm
  rw [← List.forall₂_eq_eq_eq, List.forall₂_map_left_iff]
  refine h3.imp ?_
  intro s y hy
  have key1 : tauD (incidence s.hSun s.aSun ab.1 ab.2) g = .ok (tau (incidence s.hSun s.aSun ab.1 ab.2)) ∧ cD g = .ok cd := by
    rcases hgl with ⟨rfl, rfl, rfl⟩ | ⟨rfl, rfl, rfl⟩
    · exact ⟨rfl, rfl⟩
    · exact ⟨by simp [tauD], by simp [cD]⟩
  unfold transmitted at hy
  simp only [Shading.direct, Shading.sky, key1.1, key1.2, bind, Except.bind] at hy
  split_ifs at hy
  rw [← Except.ok.inj hy]
  ring

/-- **C47 (no sun).** A part that is not a window, and a window the sun does not reach, has no transmitted radiation in any quarter hour of
the year. -/
theorem C47_no_gain {w : List Step} {b : BoundaryDict} {x : Bs} (H : getBoundarySimple w b = .ok x)
    (hb : b.boundaryType ≠ "external_transparent_part" ∨ b.isSunStruck = some false) :
    x.qTrsSol.length = 35040 ∧ ∀ q ∈ x.qTrsSol, q = 0 := by
  simp only [getBoundarySimple, bind_ok_iff] at H
  obtain ⟨_, _, _, _, _, _, _, _, _, _, _, _, _, _, p, hpc, _, _, _, _, tr, htr, q, hq, e⟩ := H
  have hx : x.qTrsSol = q := by rw [← Except.ok.inj e]
  rw [hx]
  have h2 : Transmission.create b p = .ok .none := by
    rcases hb with hb | hb
    · simp [Transmission.create, hb]
    · by_cases h : b.boundaryType = "external_transparent_part" <;> simp [Transmission.create, hb, h, key, bind, Except.bind]
  obtain rfl : tr = .none := Except.ok.inj (htr.symm.trans h2)
  rw [← Except.ok.inj hq]
  exact ⟨List.length_replicate, fun q hq => List.eq_of_mem_replicate hq⟩

/-- A south window with an overhang. -/
def exWindow : BoundaryDict where
  id := 0
  name := "window"
  connectedRoom := 0
  boundaryType := "external_transparent_part"
  area := 2
  isSunStruck := some true
  tempDifCoef := some 1
  nextRoomType := none
  rearSurface := none
  isSolarAbsorbed := false
  isFloor := false
  direction := some "s"
  rIn := 0.11
  hC := 2.5
  absorption := none
  emissivity := some 0.9
  rOut := some 0.04
  shading := some
    { existence := true
      inputMethod := some "simple"
      depth := some 0.9
      dH := some 1.2
      dE := some 0.3
      detail := none }
  glazing := some "multiple"
  eta := some 0.5
  uValue := some 2.3
  layers := none

/-- It meets the hypotheses of `C47_window`, for any weather. -/
example (w : List Step) : ∃ x ab, getBoundarySimple w exWindow = .ok x ∧ angles "s" = .ok ab ∧ Glazed "multiple" tauDouble 0.832 ∧
    x.qTrsSol.length = w.length := by
  obtain ⟨q, hq⟩ : ∃ q, w.mapM (transmitted (Weather.radians 0) (Weather.radians 90) 2
      (.simple (Weather.radians 0) 0.9 1.2 0.3) "multiple" 0.5) = .ok q := by
    have hs : ∀ s, ∃ y, transmitted (Weather.radians 0) (Weather.radians 90) 2 (.simple (Weather.radians 0) 0.9 1.2 0.3) "multiple" 0.5 s
        = .ok y := by
      intro s
      unfold transmitted
      simp only [Shading.direct, Shading.sky, show tauD (incidence s.hSun s.aSun (Weather.radians 0) (Weather.radians 90)) "multiple"
        = .ok (tauDouble (incidence s.hSun s.aSun (Weather.radians 0) (Weather.radians 90))) by simp [tauD],
        show cD "multiple" = .ok 0.832 by simp [cD], bind, Except.bind, if_neg (show ¬ (1.2 : ℝ) = 0 by norm_num)]
      exact ⟨_, rfl⟩
    choose f hf using hs
    refine ⟨w.map f, mapM_ok_iff.2 ?_⟩
    rw [List.forall₂_map_right_iff, List.forall₂_same]
    exact fun s _ => hf s
  obtain ⟨x, hx⟩ : ∃ x, getBoundarySimple w exWindow = .ok x := by
    have h11 : ¬ (0.11 : ℝ) = 0 := by norm_num
    simp [getBoundarySimple, BType.ofString, readSun, readHtd, readNextRoom, readRear, readDirection, readHi, Shading.create,
      EqvTemp.create, EqvTemp.series, Transmission.create, Transmission.series, exWindow, isExternal, key, shadingSunStruck, angles, bind,
      Except.bind, hq, h11]
  refine ⟨x, _, hx, rfl, .inr ⟨rfl, rfl, rfl⟩, ?_⟩
  rw [C47_window hx rfl rfl rfl rfl rfl rfl rfl rfl rfl rfl rfl rfl (.inr ⟨rfl, rfl, rfl⟩), List.length_map]

end HLC.Init
