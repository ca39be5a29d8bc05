import Verif.Props.Weather
import Verif.Props.Sun
import Mathlib.Data.List.GetD
import Mathlib.Tactic.IntervalCases

/-!
# C70: the weather table
-/

namespace HLC.Weather
open HLC.Spec

theorem nHour_eq {interval : String} (hi : IsInterval interval) : nHour interval = .ok (perHour interval) := by
  rcases hi with rfl | rfl | rfl <;> rfl

theorem interpolate_length {n : ℕ} (data : Fin n → ℝ) (hn : 0 < n) {interval : String} {l : List ℝ}
    (H : interpolate data interval = .ok l) (hi : IsInterval interval) : l.length = n * perHour interval := by
  obtain ⟨l', h', e, -⟩ := C43_interpolation data hn interval hi
  have : l' = l := Except.ok.inj (h'.symm.trans H)
  rw [← this, e]

/-- **C70 (table).** For every region 1 to 8, every admissible interval and every content of 8760 hourly records of the weather file of the region the
table is produced: every column has 8760 times the number of values per hour; the radiation columns are the interpolated ones; temperature differs
from the interpolated one by at most 0.0005 K and humidity by at most 0.0000005 kg/kg; and the sun columns are those of the region. -/
theorem C70_table (read : String → Except PyErr (Columns 8760)) (rnd : ℕ → ℝ → ℝ) (hr : IsRounding rnd) (region : ℤ)
    (interval : String) (h1 : 1 ≤ region) (h8 : region ≤ 8) (hi : IsInterval interval) {w : Columns 8760}
    (hw : read (weatherFile region) = .ok w) :
    ∃ f loc θ x, makeWeather read rnd region interval = .ok f ∧ location region = .ok loc ∧
      interpolate w.temperature interval = .ok θ ∧ interpolate w.humidity interval = .ok x ∧
      interpolate w.directNormal interval = .ok f.directNormal ∧ interpolate w.skyHorizontal interval = .ok f.skyHorizontal ∧
      interpolate w.outward interval = .ok f.outward ∧ calcSolarPosition loc.1 loc.2 interval = .ok f.sun ∧
      f.temperature.length = 8760 * perHour interval ∧ f.humidity.length = 8760 * perHour interval ∧
      f.directNormal.length = 8760 * perHour interval ∧ f.skyHorizontal.length = 8760 * perHour interval ∧
      f.outward.length = 8760 * perHour interval ∧ f.sun.length = 8760 * perHour interval ∧
      ∀ i < 8760 * perHour interval, |f.temperature.getD i 0 - θ.getD i 0| ≤ 0.0005 ∧
        |f.humidity.getD i 0 - x.getD i 0 / 1000| ≤ 0.0000005 := by
  obtain ⟨name', hn', hload⟩ := (C43_load read region interval).2 h1 h8 hi
  have hname : filename region = .ok (weatherFile region) := by
    interval_cases region <;> simp [filename, weatherFile]
  have : name' = weatherFile region := Except.ok.inj (hn'.symm.trans hname)
  subst this
  obtain ⟨s, hs, e1, e2, e3, e4, x, e5, e6⟩ := hload w hw
  obtain ⟨loc, sun, hloc, hsun, hlen, -⟩ := C44_year region interval h1 h8 hi
  have l1 := interpolate_length _ (by norm_num) e1 hi
  have l2 := interpolate_length _ (by norm_num) e2 hi
  have l3 := interpolate_length _ (by norm_num) e3 hi
  have l4 := interpolate_length _ (by norm_num) e4 hi
  have l5 := interpolate_length _ (by norm_num) e5 hi
  have l6 : s.xO.length = 8760 * perHour interval := by rw [e6]; simpa using l5
  refine ⟨⟨s.thetaO.map (rnd 3), s.xO.map (rnd 6), s.iDn, s.iSky, s.rN, sun⟩, loc, s.thetaO, x, ?_, hloc, e1, e5, e2, e3, e4, hsun,
    by simpa using l1, by simpa using l6, l2, l3, l4, hlen, ?_⟩
  · unfold makeWeather
    simp only [hs, hloc, hsun, nHour_eq hi, bind, Except.bind, setColumn, List.length_map, l1, l2, l3, l4, l6, hlen, if_true]
  · intro i hlt
    rw [List.getD_eq_getElem _ _ (by simpa [l1] using hlt), List.getD_eq_getElem _ _ (by simpa [l1] using hlt),
      List.getD_eq_getElem _ _ (by simpa [l6] using hlt), List.getD_eq_getElem _ _ (by simpa [l5] using hlt)]
    simp only [List.getElem_map]
    constructor
    · have := (hr 3 (s.thetaO[i]'(by simpa [l1] using hlt))).2
      norm_num at this ⊢
      exact this
    · have := (hr 6 (s.xO[i]'(by simpa [l6] using hlt))).2
      have hx : s.xO[i]'(by simpa [l6] using hlt) = x[i]'(by simpa [l5] using hlt) / 1000 := by
        simp [e6]
      rw [hx] at this ⊢
      norm_num at this ⊢
      exact this

/-- Rounding functions exist. -/
theorem exists_rounding : IsRounding (fun d x => (round (x * 10 ^ d) : ℝ) / 10 ^ d) := by
  intro d x
  refine ⟨⟨round (x * 10 ^ d), rfl⟩, ?_⟩
  have h := abs_sub_round (x * 10 ^ d)
  have hp : (0 : ℝ) < 10 ^ d := by positivity
  rw [show (round (x * 10 ^ d) : ℝ) / 10 ^ d - x = -(x * 10 ^ d - round (x * 10 ^ d)) / 10 ^ d by
    rw [neg_sub, sub_div, mul_div_cancel_right₀ _ hp.ne'], abs_div, abs_neg, abs_of_pos hp]
  gcongr
  linarith

/-- A concrete table: a constant climate in region 6. -/
example : ∃ f, makeWeather (fun _ => .ok (⟨fun _ => 10, fun _ => 0, fun _ => 0, fun _ => 50, fun _ => 5⟩ : Columns 8760))
    (fun d x => (round (x * 10 ^ d) : ℝ) / 10 ^ d) 6 "30m" = .ok f ∧ f.temperature.length = 17520 := by
  obtain ⟨f, -, -, -, h, -, -, -, -, -, -, -, hl, -⟩ := C70_table
    (fun _ => .ok (⟨fun _ => 10, fun _ => 0, fun _ => 0, fun _ => 50, fun _ => 5⟩ : Columns 8760)) _ exists_rounding 6 "30m"
    (by norm_num) (by norm_num) (by simp [IsInterval]) rfl
  exact ⟨f, h, by rw [hl]; simp [perHour]⟩

end HLC.Weather
