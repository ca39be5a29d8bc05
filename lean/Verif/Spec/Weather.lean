import Verif.Model.Weather

/-!
# Specification: weather and sun (C43, C44)
-/

namespace HLC.Spec

/-- Hourly records start at 1:00 and are cyclic: the value at hour `k` is record `k - 1`; the value at hour 0 is the last record. -/
def atHour {n : ℕ} (data : Fin n → ℝ) (hn : 0 < n) (k : ℕ) : ℝ := data ⟨(k + (n - 1)) % n, Nat.mod_lt _ hn⟩

/-- Number of values per hour. -/
def perHour (interval : String) : ℕ := if interval = "1h" then 1 else if interval = "30m" then 2 else 4

/-- The admissible intervals. -/
def IsInterval (interval : String) : Prop := interval = "1h" ∨ interval = "30m" ∨ interval = "15m"

/-- Unit vector to the sun (west, south, up) at latitude `φ` for declination `δ` and hour angle `ω`: the equatorial vector turned by the
latitude. -/
noncomputable def sunVector (φ δ ω : ℝ) : ℝ × ℝ × ℝ :=
  (Real.cos δ * Real.sin ω,
   Real.cos δ * Real.cos ω * Real.sin φ - Real.sin δ * Real.cos φ,
   Real.cos δ * Real.cos ω * Real.cos φ + Real.sin δ * Real.sin φ)

/-- Unit vector (west, south, up) of altitude `h` and azimuth `a` (south 0, west positive). -/
noncomputable def ofAngles (h a : ℝ) : ℝ × ℝ × ℝ := (Real.cos h * Real.sin a, Real.cos h * Real.cos a, Real.sin h)

/-- The weather files of the regions 1 to 8 of the energy standard, by their representative towns. -/
def weatherFile (region : ℤ) : String :=
  match region with
  | 1 => "01_kitami.csv"
  | 2 => "02_iwamizawa.csv"
  | 3 => "03_morioka.csv"
  | 4 => "04_nagano.csv"
  | 5 => "05_utsunomiya.csv"
  | 6 => "06_okayama.csv"
  | 7 => "07_miyazaki.csv"
  | 8 => "08_naha.csv"
  | _ => ""

/-- A rounding function: the result has at most `d` decimals and is nearest. -/
def IsRounding (rnd : ℕ → ℝ → ℝ) : Prop := ∀ d x, (∃ k : ℤ, rnd d x = k / 10 ^ d) ∧ |rnd d x - x| ≤ 0.5 / 10 ^ d

end HLC.Spec
