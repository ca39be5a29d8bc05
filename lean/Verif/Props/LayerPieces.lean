import Verif.Props.Entries

/-!
# A layer can be entered in pieces, unless they are very light (C119)
-/

namespace HLC.RF

open HLC.Spec

theorem layerMat_light {s : ℝ} {l : Layer} (h : |l.c| < 0.001) : layerMat s l = !![1, l.r; 0, 1] := by
  unfold layerMat
  rw [if_pos h]

/-- A wall of layers below the threshold of 0.001 J/(m2 K) is a resistance. -/
theorem wallMat_light {s : ℝ} : ∀ {ls : List Layer}, (∀ l ∈ ls, |l.c| < 0.001) → wallMat s ls = !![1, totalR ls; 0, 1] := by
  intro ls
  rw [wallMat_prod]
  induction ls with
  | nil =>
    intro _
    ext i j
    fin_cases i <;> fin_cases j <;> simp [totalR]
  | cons l ls ih =>
    intro h
    rw [List.map_cons, List.prod_cons, ih fun x hx => h x (List.mem_cons_of_mem l hx), layerMat_light (h l List.mem_cons_self)]
    ext i j
    fin_cases i <;> fin_cases j <;> simp [Matrix.mul_apply, Fin.sum_univ_two, totalR]
    ring

/-- A layer above the threshold attenuates. -/
theorem wallMat_heavy {s : ℝ} (hs : 0 < s) : ∀ {ls : List Layer}, (∀ l ∈ ls, 0 < l.r ∧ 0 ≤ l.c) → (∃ l ∈ ls, 0.001 ≤ l.c) → 1 < wallMat s ls 1 1 := by
  intro ls
  induction ls with
  | nil => rintro _ ⟨l, hl, -⟩; cases hl
  | cons l ls ih =>
    intro h hex
    obtain ⟨hr, hc⟩ := h l List.mem_cons_self
    have h' := fun x hx => h x (List.mem_cons_of_mem l hx)
    obtain ⟨i1, i2, -⟩ := wallMat_entries hs ls h'
    obtain ⟨e1, e2, e3, e4, -⟩ := layerMat_entries hr hc hs
    have e : wallMat s (l :: ls) 1 1 = layerMat s l 1 0 * wallMat s ls 0 1 + layerMat s l 0 0 * wallMat s ls 1 1 := by
      rw [wallMat_prod, wallMat_prod, List.map_cons, List.prod_cons, Matrix.mul_apply, Fin.sum_univ_two, e2]
    rw [e]
    have h0 := mul_nonneg e4 i2
    obtain ⟨x, hx, hx1⟩ := hex
    rcases List.mem_cons.1 hx with rfl | hx
    · have hm : ¬ |x.c| < 0.001 := by rw [abs_of_nonneg hc, not_lt]; exact hx1
      have ha : 1 < layerMat s x 0 0 := by
        have ht := sqrt_layer_pos hr hc hm hs
        unfold layerMat
        rw [if_neg hm]
        exact Real.one_lt_cosh.2 ht.ne'
      nlinarith
    · have := ih h' ⟨x, hx, hx1⟩
      nlinarith

theorem fit_zero {n k : ℕ} {laps : Fin k → ℝ} {alp : Fin n → ℝ} {g : Fin k → ℝ} {a : Fin n → ℝ} (H : fit laps alp g = .ok a) (hg : ∀ i, g i = 0) :
    a = 0 := by
  have : g = 0 := funext hg
  subst this
  unfold fit at H
  obtain ⟨B, -, hB⟩ := bind_ok_iff.1 H
  rw [← Except.ok.inj hB, Matrix.mulVec_zero, Matrix.mulVec_zero]

theorem fit_ne_zero {n k : ℕ} {laps : Fin (k + 1) → ℝ} {alp : Fin (n + 1) → ℝ} {g : Fin (k + 1) → ℝ} {a : Fin (n + 1) → ℝ} (hl : ∀ i, 0 < laps i)
    (ha : ∀ j, 0 < alp j) (H : fit laps alp g = .ok a) (hg : ∀ i, g i < 0) : a ≠ 0 := by
  rintro rfl
  unfold fit at H
  obtain ⟨B, h1, hB⟩ := bind_ok_iff.1 H
  have hB := Except.ok.inj hB
  obtain ⟨hdet, rfl⟩ := npInv_ok h1
  have h2 := congrArg ((matF laps alp).transpose * matF laps alp).mulVec hB
  rw [Matrix.mulVec_mulVec, Matrix.mul_nonsing_inv _ (isUnit_iff_ne_zero.2 hdet), Matrix.one_mulVec, Matrix.mulVec_zero] at h2
  have h3 := congrFun h2 0
  have h4 : (matF laps alp).transpose.mulVec g 0 < 0 := by
    simp only [Matrix.mulVec, dotProduct, Matrix.transpose_apply]
    refine Finset.sum_neg (fun i _ => mul_neg_of_pos_of_neg ?_ (hg i)) ⟨0, Finset.mem_univ _⟩
    simp only [matF, Matrix.of_apply]
    exact div_pos (hl i) (add_pos (hl i) (ha 0))
  rw [h3] at h4
  exact lt_irrefl _ h4

theorem triExp_ne_zero {n : ℕ} {alp : Fin n → ℝ} (ha : ∀ j, 0 < alp j) {a : Fin n → ℝ} {m : Fin n} (h : a m ≠ 0) : triExp alp a m ≠ 0 := by
  have hlt := (row_mem ha m).2
  unfold triRow at hlt
  unfold triExp
  have h1 : (1 - Real.exp (-(alp m * 900))) ^ 2 ≠ 0 := pow_ne_zero 2 (by linarith)
  have h2 : 1 / (alp m * 900) ≠ 0 := one_div_ne_zero (mul_pos (ha m) (by norm_num)).ne'
  exact mul_ne_zero (neg_ne_zero.2 h) (mul_ne_zero h2 h1)

/-- A wall that stores heat remembers the temperature behind it. -/
theorem response_heavy {ls : List Layer} {rf : ResponseFactor} (H : calcResponseFactor false ls = .ok rf) (hp : ∀ l ∈ ls, 0 < l.r ∧ 0 ≤ l.c)
    (hex : ∃ l ∈ ls, 0.001 ≤ l.c) : ∃ k, rf.rft1.getD k 0 ≠ 0 := by
  rcases calc_cases H with ⟨h, -⟩ | ⟨-, h⟩
  · cases h
  obtain ⟨aa, at', -, ht, -, rfl⟩ := responseOf_ok h
  have hpts := C68_points.1
  have hne := fit_ne_zero (n := 7) (k := 15) hpts.pos alphaWall_pos ht fun i => by
    have h1 := wallMat_heavy (hpts.pos i) hp hex
    unfold gT
    have : 1 / wallMat (getLaps alphaWall i) ls 1 1 < 1 := by rw [div_lt_one (by linarith)]; exact h1
    linarith
  obtain ⟨m, hm⟩ := Function.ne_iff.1 hne
  refine ⟨m.1, ?_⟩
  rw [getD_pad12 (by norm_num), dif_pos m.2]
  exact triExp_ne_zero alphaWall_pos hm

/-- A wall of very light layers remembers nothing. -/
theorem response_light {ls : List Layer} {rf : ResponseFactor} (H : calcResponseFactor false ls = .ok rf) (hl : ∀ l ∈ ls, |l.c| < 0.001) (k : ℕ) :
    rf.rft1.getD k 0 = 0 ∧ rf.rfa1.getD k 0 = 0 := by
  rcases calc_cases H with ⟨h, -⟩ | ⟨-, h⟩
  · cases h
  obtain ⟨aa, at', ha, ht, -, rfl⟩ := responseOf_ok h
  have h1 := fit_zero ht fun i => by simp [gT, wallMat_light hl]
  have h2 := fit_zero ha fun i => by simp [gA, wallMat_light hl]
  subst h1; subst h2
  have z : triExp alphaWall (0 : Fin 8 → ℝ) = fun _ => 0 := by funext m; simp [triExp]
  simp only [z]
  rw [getD_pad12 (by norm_num)]
  split <;> simp

end HLC.RF

namespace HLC.Init

open HLC.Spec

/-- **C119, where the pieces are not too light.** Two inputs that differ only in that layers of parts are entered in pieces, none of which (unless
its material has no heat capacity) has less than 0.000001 kJ/(m2 K), give the same tables, or the same error. -/
theorem C119_pieces_partial (rnd : ℕ → ℝ → ℝ) (solve : List ℝ → ℝ) (w : List Step) (hum : Fin 35040 → ℝ) (f : ScheduleFile)
    (hourly dMain dRunUp dRunUpBuild : ℤ) (d : Input) (boundaries' : List BoundaryDict)
    (H : List.Forall₂ (fun b b' => b' = b ∨ ∃ l l', b.layers = some l ∧ b' = { b with layers := some l' } ∧ LayersAlike 0.000001 l l')
      d.boundaries boundaries') :
    calculate rnd solve w hum f hourly dMain dRunUp dRunUpBuild { d with boundaries := boundaries' }
      = calculate rnd solve w hum f hourly dMain dRunUp dRunUpBuild d := by
  refine (calculate_alike rnd solve w hum f hourly dMain dRunUp dRunUpBuild (d := d) (d' := { d with boundaries := boundaries' })
    ⟨rfl, ?_, H.imp ?_⟩).symm
  · exact List.forall₂_same.2 fun r _ => ⟨rfl, Or.inl rfl⟩
  · rintro b b' (rfl | ⟨l, l', h1, rfl, h3⟩)
    · exact ⟨rfl, Or.inl rfl, Or.inl rfl, Or.inl rfl, Or.inl rfl⟩
    · exact ⟨rfl, Or.inl rfl, Or.inl rfl, Or.inl rfl, Or.inr ⟨l, l', h1, rfl, h3⟩⟩

/-- A wall of 10 cm of concrete and insulation, the concrete entered as two layers of 4 and 6 cm. -/
example : LayersAlike 0.000001 [(200, 0.1), (0.5, 2)] [(80, 0.04), (120, 0.06), (0.5, 2)] := by
  refine ⟨[[(80, 0.04), (120, 0.06)], [(0.5, 2)]], .cons (Or.inr ⟨by norm_num, [0.4, 0.6], ?_, by norm_num, by norm_num, Or.inr ?_⟩)
    (.cons (Or.inl rfl) .nil), rfl⟩
  · intro x hx
    simp only [List.mem_cons, List.not_mem_nil, or_false] at hx
    rcases hx with rfl | rfl <;> norm_num
  · intro x hx
    simp only [List.mem_cons, List.not_mem_nil, or_false] at hx
    rcases hx with rfl | rfl <;> norm_num

/-- **C119 violated.** Every part with a layer that stores heat can be cut in so many pieces that the program takes none of them to store heat: the
response factors of the pieces have no memory, those of the part do. -/
theorem C119_violated {t : BType} (ht : t = .generalPart ∨ t = .internal) (l : List (ℝ × ℝ)) (hl : ∀ x ∈ l, 0 ≤ x.1 ∧ 0 < x.2)
    (hex : ∃ x ∈ l, 0.000001 ≤ x.1) {rOut : ℝ} (hr : 0 < rOut) :
    ∃ pss rf rf', List.Forall₂ (CutInto 0) l pss ∧ readResponse (.layers t.value l rOut) = .ok rf ∧
      readResponse (.layers t.value pss.flatten rOut) = .ok rf' ∧ (∃ k, rf.rft1.getD k 0 ≠ 0) ∧
      ∀ k, rf'.rft1.getD k 0 = 0 ∧ rf'.rfa1.getD k 0 = 0 := by
  obtain ⟨n, hn⟩ := exists_nat_gt (1000000 * (l.map Prod.fst).sum)
  have hsum : 0 ≤ (l.map Prod.fst).sum := List.sum_nonneg fun c hc => by
    obtain ⟨x, hx, rfl⟩ := List.mem_map.1 hc
    exact (hl x hx).1
  have hn0 : (0 : ℝ) < n := lt_of_le_of_lt (by positivity) hn
  have hc : ∀ x ∈ l, x.1 ≤ (l.map Prod.fst).sum := fun x hx =>
    List.single_le_sum (fun c hc => by obtain ⟨y, hy, rfl⟩ := List.mem_map.1 hc; exact (hl y hy).1) _ (List.mem_map_of_mem hx)
  let cut : ℝ × ℝ → List (ℝ × ℝ) := fun x => (List.replicate n (1 / (n : ℝ))).map fun y => (y * x.1, y * x.2)
  obtain ⟨rf, h1, h2⟩ := readResponse_layers ht l rOut
  obtain ⟨rf', h1', h2'⟩ := readResponse_layers ht (l.map cut).flatten rOut
  rw [RF.mkLayers_map] at h2 h2'
  refine ⟨l.map cut, rf, rf', ?_, h1, h1', ?_, ?_⟩
  · rw [List.forall₂_map_right_iff]
    refine List.forall₂_same.2 fun x hx => ⟨(hl x hx).2, List.replicate n (1 / (n : ℝ)), ?_, ?_, rfl, Or.inr ?_⟩
    · intro y hy
      rw [(List.mem_replicate.1 hy).2]
      positivity
    · rw [List.sum_replicate, nsmul_eq_mul, mul_one_div_cancel hn0.ne']
    · intro y hy
      rw [(List.mem_replicate.1 hy).2]
      have := (hl x hx).1
      positivity
  · refine RF.response_heavy h2 ?_ ?_
    · intro y hy
      rcases List.mem_append.1 hy with hy | hy
      · obtain ⟨x, hx, rfl⟩ := List.mem_map.1 hy
        have := hl x hx
        exact ⟨this.2, mul_nonneg this.1 (by norm_num)⟩
      · rw [List.mem_singleton.1 hy]
        exact ⟨hr, by norm_num⟩
    · obtain ⟨x, hx, h⟩ := hex
      exact ⟨_, List.mem_append_left _ (List.mem_map_of_mem hx), by simp only []; linarith⟩
  · refine RF.response_light h2' fun y hy => ?_
    rcases List.mem_append.1 hy with hy | hy
    · obtain ⟨z, hz, rfl⟩ := List.mem_map.1 hy
      obtain ⟨ps, hps, hz⟩ := List.mem_flatten.1 hz
      obtain ⟨x, hx, rfl⟩ := List.mem_map.1 hps
      obtain ⟨u, hu, rfl⟩ := List.mem_map.1 hz
      rw [(List.mem_replicate.1 hu).2]
      have h0 := (hl x hx).1
      have h3 := hc x hx
      simp only []
      rw [abs_of_nonneg (by positivity)]
      have : 1 / (n : ℝ) * x.1 < 0.000001 := by
        rw [one_div, inv_mul_lt_iff₀ hn0]
        linarith
      linarith
    · rw [List.mem_singleton.1 hy]
      norm_num

end HLC.Init
