import Verif.Props.Glazing

/-!
# C106: films and gaps
-/

namespace HLC.Glass

open Spec Finset

variable {g : Glazing}

/-- **C106.** The film outdoors depends on the surface outdoors, not on the other surfaces. -/
theorem C106_outer {g' : Glazing} (h : (g.gls 0).sff = (g'.gls 0).sff) (method season : String) (ts tr : ℝ) :
    g.hE method season ts tr = g'.hE method season ts tr := by
  unfold Glazing.hE
  rw [h]

/-- **C106, part.** The film indoors depends on the surface indoors only, unless the method is `JIS_A2103`. -/
theorem C106_inner_partial {g' : Glazing} (h : (g.gls (Fin.last g.n)).sfb = (g'.gls (Fin.last g'.n)).sfb) {method : String}
    (hm : method ≠ "JIS_A2103") (season : String) (ts tr : ℝ) : g.hI method season ts tr = g'.hI method season ts tr := by
  unfold Glazing.hI
  rw [if_neg hm, if_neg hm, h]

/-- **C106 fails** for the method `JIS_A2103`: a coating of the surface towards the room has no influence on the film there, for any glazing, while
a coating of the surface outdoors has. -/
theorem C106_inner_violated :
    (∀ (g : Glazing) (c : Surf) (season : String) (ts tr : ℝ), 0 < g.n →
      Glazing.hI ⟨g.n, fun j => if j = Fin.last g.n then ⟨(g.gls j).units, (g.gls j).sff, c⟩ else g.gls j, g.als⟩ "JIS_A2103" season ts tr
        = g.hI "JIS_A2103" season ts tr) ∧
    (∀ (g : Glazing) (c : Surf) (ts tr v v' e e' : ℝ), -273.15 < ts → -273.15 < tr → (g.gls 0).sff.eps = .ok e → c.eps = .ok e' → e ≠ e' →
      g.hI "JIS_A2103" "winter" ts tr = .ok v →
      Glazing.hI ⟨g.n, fun j => if j = 0 then ⟨(g.gls j).units, c, (g.gls j).sfb⟩ else g.gls j, g.als⟩ "JIS_A2103" "winter" ts tr = .ok v' →
      v ≠ v') := by
  constructor
  · intro g c season ts tr hn
    unfold Glazing.hI
    have hne : (0 : Fin (g.n + 1)) ≠ Fin.last g.n := by
      intro h
      have := congrArg Fin.val h
      simp at this
      omega
    simp only [hne, if_true, if_false]
  · intro g c ts tr v v' e e' h1 h2 he he' hne hv hv'
    unfold Glazing.hI at hv hv'
    rw [if_pos rfl] at hv hv'
    simp only [he, he', bind, Except.bind, if_true] at hv hv'
    rw [if_neg (by decide)] at hv hv'
    cases hv
    cases hv'
    intro h
    have hs := sigma_pos
    have hp := cubes_pos (a := ts + 273.15) (b := tr + 273.15) (by linarith) (by linarith)
    have h3 : (e - e') * (glassSigma * ((ts + 273.15) ^ 3 + (ts + 273.15) ^ 2 * (tr + 273.15) + (ts + 273.15) * (tr + 273.15) ^ 2 + (tr + 273.15) ^ 3)) = 0 := by
      linear_combination h
    rcases mul_eq_zero.1 h3 with h4 | h4
    · exact hne (by linarith)
    · exact (mul_pos hs hp).ne' h4

/-- **C106.** The radiative part of the film of the method `JIS_A2103` is the law of Stefan and Boltzmann between surface and surroundings. -/
theorem C106_radiation {season : String} {ts tr v e : ℝ} (he : (g.gls 0).sff.eps = .ok e) (h : g.hE "JIS_A2103" season ts tr = .ok v) :
    ∃ hc, (season = "summer" ∧ hc = 8 ∨ season = "winter" ∧ hc = 20) ∧
      v * (ts - tr) = hc * (ts - tr) + e * (5.67 / 10 ^ 8) * ((ts + 273.15) ^ 4 - (tr + 273.15) ^ 4) := by
  unfold Glazing.hE at h
  simp only [he, bind, Except.bind, if_true] at h
  have hs : glassSigma = 5.67 / 10 ^ 8 := by norm_num [glassSigma]
  split_ifs at h with h1 h2
  · cases h
    refine ⟨8, .inl ⟨h1, rfl⟩, ?_⟩
    rw [← hs]
    generalize glassSigma = s
    ring
  · cases h
    refine ⟨20, .inr ⟨h2, rfl⟩, ?_⟩
    rw [← hs]
    generalize glassSigma = s
    ring

/-- **C106.** A gap conducts in both directions alike; its radiative part differs from the law of Stefan and Boltzmann for two parallel surfaces by the
term in the cube of the temperature difference; it never conducts less than still gas. -/
theorem C106_gap (a : AirLayer) (tf tb ef eb : ℝ) :
    a.hSOf tf tb ef eb = a.hSOf tb tf eb ef ∧
    gapHR ((tf + tb) / 2 + 273.15) ef eb * (tf - tb) = (5.67 / 10 ^ 8) / (1 / ef + 1 / eb - 1) *
      ((tf + 273.15) ^ 4 - (tb + 273.15) ^ 4 - ((tf + tb) / 2 + 273.15) * (tf - tb) ^ 3) ∧
    (0 < a.s → 0 ≤ a.mix.of (gasLambda ((tf + tb) / 2)) →
      gapHR ((tf + tb) / 2 + 273.15) ef eb + a.mix.of (gasLambda ((tf + tb) / 2)) / a.s ≤ a.hSOf tf tb ef eb) := by
  have hs : glassSigma = 5.67 / 10 ^ 8 := by norm_num [glassSigma]
  refine ⟨?_, ?_, fun h1 h2 => ?_⟩
  · unfold AirLayer.hSOf AirLayer.hS gapHR
    rw [abs_sub_comm, add_comm tf tb, add_comm (1 / ef)]
  · unfold gapHR
    rw [← hs]
    generalize 1 / ef + 1 / eb - 1 = d
    generalize glassSigma = s
    ring
  · unfold AirLayer.hSOf AirLayer.hS AirLayer.hG
    simp only [add_sub_cancel_right]
    have : a.mix.of (gasLambda ((tf + tb) / 2)) / a.s ≤
        max 1 (a.a * (a.gr |(|tf - tb|)| ((tf + tb) / 2 + 273.15) (a.mix.of (gasRho ((tf + tb) / 2))) (a.mix.of (gasMu ((tf + tb) / 2))) *
          gasPr (a.mix.of (gasMu ((tf + tb) / 2))) (a.mix.of gasC) (a.mix.of (gasLambda ((tf + tb) / 2)))) ^ a.n) *
          a.mix.of (gasLambda ((tf + tb) / 2)) / a.s := by
      rw [div_le_div_iff_of_pos_right h1]
      exact le_mul_of_one_le_left h2 (le_max_left _ _)
    linarith

/-- **C106.** A mixture is accepted exactly if its shares make up 100 %; every property of an accepted mixture lies between those of its gases, and
a pure gas has its own. -/
theorem C106_mixture (air argon sf6 krypton : ℝ) :
    ((∃ m, mkMix air argon sf6 krypton = .ok m) ↔ air + argon + sf6 + krypton = 100) ∧
    ∀ m, mkMix air argon sf6 krypton = .ok m → ∀ f : Gas → ℝ,
      (0 ≤ air → 0 ≤ argon → 0 ≤ sf6 → 0 ≤ krypton → ∀ lo hi, (∀ g, lo ≤ f g ∧ f g ≤ hi) → lo ≤ m.of f ∧ m.of f ≤ hi) ∧
      (air = 100 → argon = 0 → sf6 = 0 → m.of f = f .air) ∧ (argon = 100 → air = 0 → sf6 = 0 → m.of f = f .argon) ∧
      (sf6 = 100 → air = 0 → argon = 0 → m.of f = f .sf6) ∧ (krypton = 100 → air = 0 → argon = 0 → m.of f = f .krypton) := by
  unfold mkMix
  constructor
  · split_ifs with h
    · exact ⟨fun ⟨m, hm⟩ => (nomatch hm), fun e => absurd e h⟩
    · exact ⟨fun _ => not_not.1 h, fun _ => ⟨_, rfl⟩⟩
  · intro m hm f
    split_ifs at hm with h
    have h := not_not.1 h
    have e := Except.ok.inj hm
    subst e
    refine ⟨fun h1 h2 h3 h4 lo hi hb => ?_, fun h1 h2 h3 => ?_, fun h1 h2 h3 => ?_, fun h1 h2 h3 => ?_, fun h1 h2 h3 => ?_⟩
    · have a := hb .air
      have b := hb .argon
      have c := hb .sf6
      have d := hb .krypton
      simp only [Mix.of]
      constructor
      · have := mul_le_mul_of_nonneg_right a.1 h1
        have := mul_le_mul_of_nonneg_right b.1 h2
        have := mul_le_mul_of_nonneg_right c.1 h3
        have := mul_le_mul_of_nonneg_right d.1 h4
        have : lo * (air + argon + sf6 + krypton) = lo * 100 := by rw [h]
        linarith
      · have := mul_le_mul_of_nonneg_right a.2 h1
        have := mul_le_mul_of_nonneg_right b.2 h2
        have := mul_le_mul_of_nonneg_right c.2 h3
        have := mul_le_mul_of_nonneg_right d.2 h4
        have : hi * (air + argon + sf6 + krypton) = hi * 100 := by rw [h]
        linarith
    · obtain rfl : krypton = 0 := by linarith
      simp [Mix.of, h1, h2, h3]
    · obtain rfl : krypton = 0 := by linarith
      simp [Mix.of, h1, h2, h3]
    · obtain rfl : krypton = 0 := by linarith
      simp [Mix.of, h1, h2, h3]
    · obtain rfl : sf6 = 0 := by linarith
      simp [Mix.of, h1, h2, h3]

/-- Nine parts of argon and one of air make up an accepted mixture. -/
example : (∃ m, mkMix 10 90 0 0 = .ok m) := ((C106_mixture 10 90 0 0).1).2 (by norm_num)

/-- **C103, the laws of the single flows.** With films and gaps at their own temperatures: what leaves to outdoors and to the room is convection and
radiation from the outermost and from the innermost surface at their own temperatures (method `JIS_A2103`; with the emissivity of the
surface outdoors on both sides, see C106) or follows the constant films of the other methods; sheets conduct; gaps exchange heat between the
two surfaces next to them at their temperatures and emissivities. -/
theorem C103_laws (hg : WellMade g) {root : (N : ℕ) → Root N} {k : GlazingCase} (hk : k.fixed = false) {ia : Fin (g.n + 1) → ℝ}
    {th : Fin (2 * (g.n + 1)) → ℝ} {reg : ℕ → ℝ} {qin : ℝ} (h : g.tempAndR root k ia = .ok (th, reg, qin)) :
    ∃ ee ei, (g.gls 0).sff.eps = .ok ee ∧ (g.gls (Fin.last g.n)).sfb.eps = .ok ei ∧
    (k.method = "JIS_A2103" → ∃ ce ci, (k.season = "summer" ∧ ce = 8 ∧ ci = 2.5 ∨ k.season = "winter" ∧ ce = 20 ∧ ci = 3.6) ∧
      -heatThrough reg k.thetaE k.thetaI th 0 = ce * (th 0 - k.thetaE) + ee * (5.67 / 10 ^ 8) * ((th 0 + 273.15) ^ 4 - (k.thetaE + 273.15) ^ 4) ∧
      heatThrough reg k.thetaE k.thetaI th (2 * (g.n + 1)) = ci * (th (Fin.last _) - k.thetaI)
        + ee * (5.67 / 10 ^ 8) * ((th (Fin.last _) + 273.15) ^ 4 - (k.thetaI + 273.15) ^ 4)) ∧
    (k.method ≠ "JIS_A2103" → -heatThrough reg k.thetaE k.thetaI th 0 = (4.9 * ee + 16.3) * (th 0 - k.thetaE) ∧
      heatThrough reg k.thetaE k.thetaI th (2 * (g.n + 1)) = (5.4 * ei + 4.1) * (th (Fin.last _) - k.thetaI)) ∧
    (∀ j : Fin (g.n + 1), heatThrough reg k.thetaE k.thetaI th (2 * j + 1) * ((g.gls j).units.map fun u => u.1 / u.2).sum
      = th ⟨2 * j, by omega⟩ - th ⟨2 * j + 1, by omega⟩) ∧
    ∀ j : Fin g.n, ∃ eb ef, (g.gls j.castSucc).sfb.eps = .ok eb ∧ (g.gls j.succ).sff.eps = .ok ef ∧
      heatThrough reg k.thetaE k.thetaI th (2 * j + 2)
        = (g.als j).hSOf (th ⟨2 * j + 1, by omega⟩) (th ⟨2 * j + 2, by omega⟩) eb ef * (th ⟨2 * j + 1, by omega⟩ - th ⟨2 * j + 2, by omega⟩) := by
  have hs : glassSigma = 5.67 / 10 ^ 8 := by norm_num [glassSigma]
  have hk' : ¬ k.fixed = true := by simp [hk]
  obtain ⟨h1, -⟩ := tempAndR_ok h
  obtain ⟨he, hi, h2, h3, rfl⟩ := (getR_iff hg).1 h1
  obtain ⟨ee, e1, -, -⟩ := eps_good (hg.front 0)
  obtain ⟨ei, f1, -, -⟩ := eps_good (hg.back (Fin.last g.n))
  have q0 : -heatThrough (resist g he hi (gapOf g k (seq th))) k.thetaE k.thetaI th 0 = he * (th 0 - k.thetaE) := by
    unfold heatThrough wayIn resist
    rw [if_pos rfl, if_pos rfl, if_neg (by omega), dif_pos (by omega), div_div_eq_mul_div, div_one]
    show -((_ - th 0) * he) = _
    ring
  have q1 : heatThrough (resist g he hi (gapOf g k (seq th))) k.thetaE k.thetaI th (2 * (g.n + 1)) = hi * (th (Fin.last _) - k.thetaI) := by
    unfold heatThrough wayIn resist
    rw [if_neg (by omega), dif_pos (by omega), if_neg (by omega), dif_neg (by omega), if_neg (by omega), if_pos rfl, div_div_eq_mul_div, div_one]
    show (th (Fin.last _) - _) * hi = _
    ring
  have s0 : seq th 0 = th 0 := dif_pos _
  have s1 : seq th (2 * g.n + 1) = th (Fin.last _) := dif_pos _
  unfold Glazing.outerFilm Glazing.hE at h2
  unfold Glazing.innerFilm Glazing.hI at h3
  rw [if_neg hk', e1, s0] at h2
  rw [if_neg hk', e1, f1, s1] at h3
  simp only [bind, Except.bind] at h2 h3
  refine ⟨ee, ei, e1, f1, fun hm => ?_, fun hm => ?_, fun j => ?_, fun j => ?_⟩
  · rw [if_pos hm] at h2 h3
    rw [q0, q1, ← hs]
    split_ifs at h2 h3 with hs1 hs2
    · cases h2
      cases h3
      refine ⟨8, 2.5, .inl ⟨hs1, rfl, rfl⟩, ?_, ?_⟩ <;> generalize glassSigma = s <;> ring
    · cases h2
      cases h3
      refine ⟨20, 3.6, .inr ⟨hs2, rfl, rfl⟩, ?_, ?_⟩ <;> generalize glassSigma = s <;> ring
  · rw [if_neg hm] at h2 h3
    cases h2
    cases h3
    exact ⟨q0, q1⟩
  · have hp := pane_pos hg j
    unfold heatThrough wayIn resist
    have hd : (2 * (j : ℕ) + 1) / 2 = j := by omega
    rw [if_neg (by omega), dif_pos (by omega), if_neg (by omega), dif_pos (by omega), if_neg (by omega), if_neg (by omega), if_pos (by omega),
      dif_pos (by omega)]
    simp only [hd]
    exact div_mul_cancel₀ _ hp.ne'
  · obtain ⟨eb, hb, -, -⟩ := eps_good (hg.back j.castSucc)
    obtain ⟨ef, hf, -, -⟩ := eps_good (hg.front j.succ)
    refine ⟨eb, ef, hb, hf, ?_⟩
    have hgap : gapOf g k (seq th) j = (g.als j).hSOf (th ⟨2 * j + 1, by omega⟩) (th ⟨2 * j + 2, by omega⟩) eb ef := by
      unfold gapOf Glazing.gap
      rw [hb, hf]
      simp only [bind, Except.bind]
      rw [if_neg hk']
      have t1 : seq th (2 * (j : ℕ) + 1) = th ⟨2 * j + 1, by omega⟩ := dif_pos _
      have t2 : seq th (2 * ((j : ℕ) + 1)) = th ⟨2 * j + 2, by omega⟩ := dif_pos _
      simp only [t1, t2]
    rw [← hgap]
    unfold heatThrough wayIn resist
    have hd : (2 * (j : ℕ) + 2) / 2 - 1 = j := by omega
    rw [if_neg (by omega), dif_pos (by omega), if_neg (by omega), dif_pos (by omega), if_neg (by omega), if_neg (by omega), if_neg (by omega),
      dif_pos (by omega)]
    simp only [hd]
    rw [div_div_eq_mul_div, div_one, mul_comm]
    rfl

theorem interp_tabulated (v1 v2 v3 v4 : ℝ) : Tabulated (fun t => interp t v1 v2 v3 v4) ![v1, v2, v3, v4] := by
  intro j s h0 h1
  unfold interp
  fin_cases j
  · simp only [Fin.zero_eta, CharP.cast_eq_zero, mul_zero, add_zero]
    split_ifs with h2 h3
    · simp; ring
    · obtain rfl : s = 1 := by linarith
      simp
    · exfalso; linarith
  · simp only [Fin.mk_one, Nat.cast_one, mul_one]
    split_ifs with h2 h3
    · exfalso; linarith
    · simp; ring
    · obtain rfl : s = 1 := by linarith
      simp; norm_num
  · simp only [Fin.reduceFinMk, Nat.cast_ofNat]
    split_ifs with h2 h3
    · exfalso; linarith
    · exfalso; linarith
    · simp; ring

/-- **C106.** The properties of the gases are those of the standards, linear between the temperatures of the table; and of the four gases air conducts
most, then argon, sulphur hexafluoride and krypton. -/
theorem C106_gases (a : Gas) :
    Tabulated (fun t => gasRho t a) (gasTable a).1 ∧ Tabulated (fun t => gasMu t a * 10 ^ 5) (gasTable a).2.1 ∧
    Tabulated (fun t => gasLambda t a * 10 ^ 2) (gasTable a).2.2.1 ∧ gasC a / 10 ^ 3 = (gasTable a).2.2.2 ∧
    ∀ t, -10 ≤ t → t ≤ 20 → gasLambda t .krypton < gasLambda t .sf6 ∧ gasLambda t .sf6 < gasLambda t .argon ∧ gasLambda t .argon < gasLambda t .air := by
  have h5 : ∀ x : ℝ, x * (10 : ℝ) ^ (-5 : ℤ) * 10 ^ 5 = x := by intro x; norm_num; ring
  have h2 : ∀ x : ℝ, x * (10 : ℝ) ^ (-2 : ℤ) * 10 ^ 2 = x := by intro x; norm_num; ring
  refine ⟨?_, ?_, ?_, ?_, fun t h1 h3 => ?_⟩
  · cases a <;> exact interp_tabulated _ _ _ _
  · cases a <;> simp only [gasMu, h5] <;> exact interp_tabulated _ _ _ _
  · cases a <;> simp only [gasLambda, h2] <;> exact interp_tabulated _ _ _ _
  · cases a <;> norm_num [gasC, gasTable]
  · have p : (0 : ℝ) < (10 : ℝ) ^ (-2 : ℤ) := by positivity
    refine ⟨mul_lt_mul_of_pos_right ?_ p, mul_lt_mul_of_pos_right ?_ p, mul_lt_mul_of_pos_right ?_ p⟩ <;>
    · unfold interp
      split_ifs <;> norm_num <;> linarith

/-- **C106.** Convection in a gap as in the standards: conduction of the gas times a factor that is 1 in a narrow gap and else a power of the Rayleigh
number, with the constants for the position of the gap. -/
theorem C106_convection (l : AirLayer) (dT θ : ℝ) (hs : l.s ≠ 0) (hmu : l.mix.of (gasMu θ) ≠ 0) :
    l.s * l.hG dT (θ + 273.15) = l.mix.of (gasLambda θ) * max 1 ((gapConstants l.direction).1 *
      (9.81 * |dT| / (θ + 273.15) * l.s ^ 3 * l.mix.of (gasRho θ) ^ 2 * l.mix.of gasC / (l.mix.of (gasMu θ) * l.mix.of (gasLambda θ)))
        ^ (gapConstants l.direction).2) := by
  have e1 : l.a = (gapConstants l.direction).1 := by unfold AirLayer.a gapConstants; cases l.direction <;> rfl
  have e2 : l.n = (gapConstants l.direction).2 := by unfold AirLayer.n gapConstants; cases l.direction <;> rfl
  unfold AirLayer.hG AirLayer.gr gasPr
  simp only [add_sub_cancel_right, e1, e2]
  have e3 : 9.81 * l.s ^ 3 * |dT| * l.mix.of (gasRho θ) ^ 2 / (θ + 273.15) / l.mix.of (gasMu θ) ^ 2 * (l.mix.of (gasMu θ) * l.mix.of gasC / l.mix.of (gasLambda θ))
      = 9.81 * |dT| / (θ + 273.15) * l.s ^ 3 * l.mix.of (gasRho θ) ^ 2 * l.mix.of gasC / (l.mix.of (gasMu θ) * l.mix.of (gasLambda θ)) := by
    rw [div_mul_div_comm]
    generalize l.mix.of (gasMu θ) = m at hmu ⊢
    generalize l.mix.of (gasLambda θ) = k
    field_simp
  rw [e3]
  field_simp

/-- A gap of 12 mm of air at 0 degC meets the hypotheses. -/
example : ∃ l : AirLayer, l.s ≠ 0 ∧ l.mix.of (gasMu 0) ≠ 0 :=
  ⟨⟨⟨100, 0, 0, 0⟩, .vertical, 0.012⟩, by norm_num, by norm_num [Mix.of, gasMu, interp]⟩

end HLC.Glass
