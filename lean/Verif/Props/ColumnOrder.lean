import Verif.Props.Results

/-!
# C79: the order of the columns
-/

namespace HLC
open Spec

section
variable {n m N : ℕ} {h : House (Fin n) (Fin m)} {hR : Fin m → ℝ} {data : Fin N → Record (Fin n) (Fin m)}
  {hourly dMain dRunUp dRunUpBuild : ℤ}

/-- **C79 (order).** The columns stand in this order: the outdoor columns, then room by room the columns of the room and, quantity by quantity,
those of its parts in the order of the input. -/
theorem C79_order {rnd : ℕ → ℝ → ℝ} {ds : Digest} {tab : Table}
    (H : calcTables rnd h hR data hourly dMain dRunUp dRunUpBuild = .ok (ds, tab)) :
    tab.cols.map Prod.fst = "out_temp" :: "out_abs_humid" :: ((List.finRange n).map fun i : Fin n =>
      (["ac_operate", "occupancy", "hc_hum", "hr_hum", "t_r", "rh_r", "x_r",
        "mrt", "ot", "q_sol_t", "q_s_except_hum", "q_l_except_hum", "q_hum_s", "q_hum_l", "l_s_c", "l_s_r", "l_l_c", "t_fun", "q_s_fun",
        "q_s_sol_fun", "x_fun", "q_l_fun", "v_reak", "v_ntrl", "remarks"].map (roomColumn i)) ++
      (["t_s", "t_e", "t_b", "hir_s", "qir_s", "hic_s", "qic_s", "qisol_s", "qiall_s"].map fun s =>
        (List.range ((List.finRange m).filter fun j => h.room j = i).length).map fun b => partColumn i b s).flatten).flatten := by
  obtain ⟨r, H1, -, H2, -⟩ := calcTables_run H
  obtain ⟨_, _, _, _, T⟩ := coreCalc_ok H1
  obtain ⟨ivs, -, hss⟩ := makePreCalc_ok T.pre
  have hp : r.ss.p = h.p := by rw [hss]; rfl
  have hs : ∀ i, selected r i = (List.finRange m).filter fun j => h.room j = i := by
    intro i
    unfold selected
    refine List.filter_congr fun j _ => ?_
    simp [hp, House.p]
  have e : tab = detailTable r := Except.ok.inj (H2.symm.trans (recordDetail_eq (nMain_le H1)))
  have : tab.cols.map Prod.fst = ((allCols r).map Prod.fst).map Col.name := by
    rw [e]
    simp [detailTable, Function.comp_def]
  rw [this, List.map_map]
  unfold allCols
  rw [List.map_cons, List.map_cons, List.map_flatten, List.map_map]
  congr 2
  congr 1
  refine List.map_congr_left fun i _ => ?_
  have hr := roomCols_names (r := r) i
  show List.map (Col.name ∘ Prod.fst) (roomCols r i) = _
  have hpart : ∀ k q, Col.name (Col.part i k q) = partColumn i k q.suffix := by
    intro k q
    show "rm" ++ toString (i : ℕ) ++ "_" ++ "b" ++ toString k ++ "_" ++ q.suffix = "rm" ++ toString (i : ℕ) ++ "_b" ++ toString k ++ "_" ++ q.suffix
    rw [String.append_assoc (s₁ := "rm" ++ toString (i : ℕ)) (s₂ := "_") (s₃ := "b")]
    rfl
  have h1 : (RoomQ.all.map (Col.room i)).map Col.name = ["ac_operate", "occupancy", "hc_hum", "hr_hum", "t_r", "rh_r", "x_r",
        "mrt", "ot", "q_sol_t", "q_s_except_hum", "q_l_except_hum", "q_hum_s", "q_hum_l", "l_s_c", "l_s_r", "l_l_c", "t_fun", "q_s_fun",
        "q_s_sol_fun", "x_fun", "q_l_fun", "v_reak", "v_ntrl", "remarks"].map (roomColumn i) := rfl
  have h2 : ∀ l : List ℕ, (PartQ.all.map fun q => l.map fun k => Col.part i k q).flatten.map Col.name
      = (["t_s", "t_e", "t_b", "hir_s", "qir_s", "hic_s", "qic_s", "qisol_s", "qiall_s"].map fun s => l.map fun b => partColumn i b s).flatten := by
    intro l
    have : ["t_s", "t_e", "t_b", "hir_s", "qir_s", "hic_s", "qic_s", "qisol_s", "qiall_s"] = PartQ.all.map PartQ.suffix := rfl
    rw [this, List.map_map, List.map_flatten, List.map_map]
    congr 1
    refine List.map_congr_left fun q _ => ?_
    simp only [Function.comp_def, List.map_map, hpart]
  rw [← List.map_map, hr, hs i, List.map_append, h1, h2]

end

end HLC
