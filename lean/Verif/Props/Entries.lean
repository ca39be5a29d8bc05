import Verif.Model.Whole
import Verif.Spec.Entries
import Verif.Props.Response
import Verif.Props.Reader

/-!
# Inputs that give the same results (C119-C121)
-/

namespace HLC.RF

/-- The matrix of a piece with share `x` of a layer that stores heat. -/
theorem layerMat_piece {r c s x : ℝ} (hx : 0 < x) (hm : ¬ |x * c| < 0.001) :
    layerMat s ⟨x * r, x * c⟩ = !![Real.cosh (x * Real.sqrt (r * c * s)), r / Real.sqrt (r * c * s) * Real.sinh (x * Real.sqrt (r * c * s));
      Real.sqrt (r * c * s) / r * Real.sinh (x * Real.sqrt (r * c * s)), Real.cosh (x * Real.sqrt (r * c * s))] := by
  unfold layerMat
  rw [if_neg hm]
  have e : Real.sqrt (x * r * (x * c) * s) = x * Real.sqrt (r * c * s) := by
    rw [show x * r * (x * c) * s = x ^ 2 * (r * c * s) by ring, Real.sqrt_mul (sq_nonneg x), Real.sqrt_sq hx.le]
  simp only [e]
  rw [mul_div_mul_left _ _ hx.ne', mul_div_mul_left _ _ hx.ne']

/-- Pieces of a layer with shares `xs` have together the matrix of a layer with the share `xs.sum`. -/
theorem prod_pieces {r c s : ℝ} (hr : 0 < r) (hs : 0 < s) (hc : c = 0 ∨ 0 < c) : ∀ xs : List ℝ, xs ≠ [] → (∀ x ∈ xs, 0 < x) →
    (c = 0 ∨ ∀ x ∈ xs, 0.001 ≤ x * c) →
    ((xs.map fun x => layerMat s ⟨x * r, x * c⟩).prod) = layerMat s ⟨xs.sum * r, xs.sum * c⟩ := by
  intro xs hne hpos hbig
  induction xs with
  | nil => exact absurd rfl hne
  | cons x xs ih =>
    by_cases hxs : xs = []
    · subst hxs; simp
    have hx := hpos x List.mem_cons_self
    have hpos' := fun y hy => hpos y (List.mem_cons_of_mem x hy)
    have hbig' : c = 0 ∨ ∀ y ∈ xs, 0.001 ≤ y * c := hbig.imp_right fun h y hy => h y (List.mem_cons_of_mem x hy)
    rw [List.map_cons, List.prod_cons, ih hxs hpos' hbig', List.sum_cons]
    have hsum : 0 < xs.sum := List.sum_pos xs hpos' hxs
    rcases hbig with h0 | hbig
    · subst h0
      have h0 : ∀ r : ℝ, layerMat s ⟨r, 0⟩ = !![1, r; 0, 1] := fun r => by
        unfold layerMat
        rw [if_pos (by norm_num)]
      simp only [mul_zero, h0]
      ext i j
      fin_cases i <;> fin_cases j <;> simp [Matrix.mul_apply, Fin.sum_univ_two]
      ring
    · have hcp : 0 < c := by
        rcases hc with h | h
        · have := hbig x List.mem_cons_self
          rw [h, mul_zero] at this
          norm_num at this
        · exact h
      have h1 : ¬ |x * c| < 0.001 := by
        rw [abs_of_pos (mul_pos hx hcp), not_lt]; exact hbig x List.mem_cons_self
      obtain ⟨y, hy⟩ := List.exists_mem_of_ne_nil xs hxs
      have hys : y ≤ xs.sum := List.single_le_sum (fun z hz => (hpos' z hz).le) y hy
      have h2 : ¬ |xs.sum * c| < 0.001 := by
        rw [abs_of_pos (mul_pos hsum hcp), not_lt]
        exact (hbig y (List.mem_cons_of_mem x hy)).trans (mul_le_mul_of_nonneg_right hys hcp.le)
      have h3 : ¬ |(x + xs.sum) * c| < 0.001 := by
        rw [abs_of_pos (mul_pos (add_pos hx hsum) hcp), not_lt]
        exact (hbig x List.mem_cons_self).trans (mul_le_mul_of_nonneg_right (by linarith) hcp.le)
      rw [layerMat_piece hx h1, layerMat_piece hsum h2, layerMat_piece (add_pos hx hsum) h3]
      have ht : 0 < Real.sqrt (r * c * s) := Real.sqrt_pos.2 (by positivity)
      generalize Real.sqrt (r * c * s) = t at ht ⊢
      have e : r / t * (t / r) = 1 := by
        rw [div_mul_div_comm, mul_comm t r, div_self (mul_pos hr ht).ne']
      rw [add_mul, Real.cosh_add, Real.sinh_add]
      generalize Real.cosh (x * t) = a
      generalize Real.sinh (x * t) = b
      generalize Real.cosh (xs.sum * t) = a'
      generalize Real.sinh (xs.sum * t) = b'
      generalize hp : r / t = p at e ⊢
      generalize hq : t / r = q at e ⊢
      ext i j
      fin_cases i <;> fin_cases j <;> simp [Matrix.mul_apply, Fin.sum_univ_two]
      · linear_combination b * b' * e
      · ring
      · ring
      · linear_combination b * b' * e

/-- Layers with the same matrices and the same total resistance have the same response factors. -/
theorem calcResponseFactor_congr {ls ls' : List Layer} (he : ls.isEmpty = ls'.isEmpty) (hr : totalR ls = totalR ls')
    (hm : ∀ s, 0 < s → wallMat s ls = wallMat s ls') (g : Bool) : calcResponseFactor g ls = calcResponseFactor g ls' := by
  have key : ∀ {n : ℕ} {alp : Fin (n + 2) → ℝ}, FitPoints alp (getLaps alp) → responseOf alp ls = responseOf alp ls' := by
    intro n alp hp
    have hA : (fun i => gA ls (getLaps alp i)) = fun i => gA ls' (getLaps alp i) := by
      funext i
      simp only [gA, hm _ (hp.pos i), hr]
    have hT : (fun i => gT ls (getLaps alp i)) = fun i => gT ls' (getLaps alp i) := by
      funext i
      simp only [gT, hm _ (hp.pos i)]
    unfold responseOf
    rw [he, hA, hT, hr]
  unfold calcResponseFactor
  cases g
  · exact key C68_points.1
  · exact key C68_points.2

theorem mkLayers_map (l : List (ℝ × ℝ)) (c r : ℝ) :
    mkLayers (l.map Prod.fst ++ [c]) (l.map Prod.snd ++ [r]) = l.map (fun x => (⟨x.2, x.1 * 1000⟩ : Layer)) ++ [⟨r, c * 1000⟩] := by
  induction l with
  | nil => rfl
  | cons a l ih =>
    simp only [mkLayers] at ih
    simp only [mkLayers, List.map_cons, List.cons_append, List.zipWith_cons_cons, ih]

/-- Layers in pieces: the same matrix at every point, and the same total resistance. -/
theorem sameLayers_mat {ls ls' : List (ℝ × ℝ)} (H : Spec.LayersAlike 0.000001 ls ls') :
    (∀ s, 0 < s → (ls.map fun x => layerMat s ⟨x.2, x.1 * 1000⟩).prod = (ls'.map fun x => layerMat s ⟨x.2, x.1 * 1000⟩).prod) ∧
      (ls.map Prod.snd).sum = (ls'.map Prod.snd).sum := by
  obtain ⟨pss, hf, rfl⟩ := H
  induction hf with
  | nil => simp
  | @cons l ps ls pss h _ ih =>
    have one : (∀ s, 0 < s → layerMat s ⟨l.2, l.1 * 1000⟩ = (ps.map fun x => layerMat s ⟨x.2, x.1 * 1000⟩).prod) ∧ l.2 = (ps.map Prod.snd).sum := by
      rcases h with rfl | ⟨hr, xs, hpos, hsum, rfl, hbig⟩
      · simp
      · have hne : xs ≠ [] := by rintro rfl; simp at hsum
        constructor
        · intro s hs
          have hc : l.1 * 1000 = 0 ∨ 0 < l.1 * 1000 := by
            rcases hbig with h | h
            · left; rw [h, zero_mul]
            · right
              obtain ⟨x, hx⟩ := List.exists_mem_of_ne_nil xs hne
              have h1 : (0 : ℝ) < x * l.1 := lt_of_lt_of_le (by norm_num) (h x hx)
              have := pos_of_mul_pos_right h1 (hpos x hx).le
              positivity
          have hbig' : l.1 * 1000 = 0 ∨ ∀ x ∈ xs, 0.001 ≤ x * (l.1 * 1000) :=
            hbig.imp (fun h => by rw [h, zero_mul]) fun h x hx => by have := h x hx; linarith
          have := prod_pieces hr hs hc xs hne hpos hbig'
          rw [hsum, one_mul, one_mul] at this
          rw [← this, List.map_map]
          congr 1
          apply List.map_congr_left
          intro x _
          simp only [Function.comp, mul_assoc]
        · rw [List.map_map]
          have : (Prod.snd ∘ fun x => (x * l.1, x * l.2)) = fun x : ℝ => x * l.2 := rfl
          rw [this, List.sum_map_mul_right, List.map_id', hsum, one_mul]
    constructor
    · intro s hs
      rw [List.map_cons, List.prod_cons, List.flatten_cons, List.map_append, List.prod_append, ← ih.1 s hs, ← one.1 s hs]
    · rw [List.map_cons, List.sum_cons, List.flatten_cons, List.map_append, List.sum_append, ← ih.2, ← one.2]

theorem response_congr {ls ls' : List (ℝ × ℝ)} (H : Spec.LayersAlike 0.000001 ls ls') (c r : ℝ) (g : Bool) :
    calcResponseFactor g (mkLayers (ls.map Prod.fst ++ [c]) (ls.map Prod.snd ++ [r]))
      = calcResponseFactor g (mkLayers (ls'.map Prod.fst ++ [c]) (ls'.map Prod.snd ++ [r])) := by
  obtain ⟨h1, h2⟩ := sameLayers_mat H
  rw [mkLayers_map, mkLayers_map]
  refine calcResponseFactor_congr ?_ ?_ ?_ g
  · cases ls <;> cases ls' <;> rfl
  · have e : ∀ l : List (ℝ × ℝ), totalR (l.map (fun x => (⟨x.2, x.1 * 1000⟩ : Layer)) ++ [⟨r, c * 1000⟩]) = (l.map Prod.snd).sum + r := by
      intro l
      simp [totalR, Function.comp_def]
    rw [e, e, h2]
  · intro s hs
    have e : ∀ l : List (ℝ × ℝ), (l.map (fun x => (⟨x.2, x.1 * 1000⟩ : Layer))).map (layerMat s) = l.map fun x => layerMat s ⟨x.2, x.1 * 1000⟩ := by
      intro l
      rw [List.map_map]; rfl
    rw [wallMat_prod, wallMat_prod, List.map_append, List.map_append, List.prod_append, List.prod_append, e, e, h1 s hs]

end HLC.RF

namespace HLC.Init

open HLC.Spec

/-- Both runs fail with the same error, or both give results that are related by `R`. -/
def SameRun {α β : Type} (R : α → β → Prop) : Except PyErr α → Except PyErr β → Prop
  | .ok a, .ok b => R a b
  | .error e, .error e' => e = e'
  | _, _ => False

theorem SameRun.bind {α β γ δ : Type} {R : α → β → Prop} {Q : γ → δ → Prop} {x : Except PyErr α} {y : Except PyErr β} {f : α → Except PyErr γ}
    {g : β → Except PyErr δ} (h : SameRun R x y) (hf : ∀ a b, R a b → SameRun Q (f a) (g b)) : SameRun Q (x >>= f) (y >>= g) := by
  cases x <;> cases y
  · exact h
  · exact h.elim
  · exact h.elim
  · exact hf _ _ h

theorem SameRun.of_eq {α : Type} {x y : Except PyErr α} (h : x = y) : SameRun Eq x y := by
  subst h
  cases x <;> rfl

theorem SameRun.eq {α : Type} {x y : Except PyErr α} (h : SameRun Eq x y) : x = y := by
  cases x <;> cases y
  · exact congrArg _ h
  · exact h.elim
  · exact h.elim
  · exact congrArg _ h

theorem SameRun.mapM {α β γ δ : Type} {S : α → β → Prop} {R : γ → δ → Prop} {f : α → Except PyErr γ} {g : β → Except PyErr δ}
    (hf : ∀ a b, S a b → SameRun R (f a) (g b)) {l : List α} {l' : List β} (hl : List.Forall₂ S l l') :
    SameRun (List.Forall₂ R) (l.mapM f) (l'.mapM g) := by
  induction hl with
  | nil => exact List.Forall₂.nil
  | cons h _ ih =>
    rw [List.mapM_cons, List.mapM_cons]
    exact (hf _ _ h).bind fun a b hab => ih.bind fun as bs hs => List.Forall₂.cons hab hs

/-- What of a part is used after it has been read. -/
noncomputable def Bs.core (b : Bs) : Bs := { b with name := "", hI := 0, nextRoomType := 0 }

theorem readNextRoom_ok {b : BoundaryDict} {s : String} (h : b.nextRoomType = some s) (hs : s ∈ roomWords) : ∃ k, readNextRoom b = .ok k := by
  unfold readNextRoom
  split_ifs
  · simp only [roomWords, List.mem_cons, List.not_mem_nil, or_false] at hs
    rcases hs with rfl | rfl | rfl | rfl <;> exact ⟨_, by rw [h]; rfl⟩
  · exact ⟨_, rfl⟩

/-- Alike parts are read alike. -/
theorem part_alike (w : List Step) {b b' : BoundaryDict} (H : PartAlike 0.000001 b b') :
    SameRun (fun x x' => x.core = x'.core ∧ BType.ofString b.boundaryType = .ok x.bType) (getBoundarySimple w b) (getBoundarySimple w b') := by
  have ho := H.others
  have e1 : b'.boundaryType = b.boundaryType := by rw [ho]
  have e2 : readSun b' = readSun b := by rw [ho]; rfl
  have e3 : readHtd b' = readHtd b := by rw [ho]; rfl
  have e4 : readRear b' = readRear b := by rw [ho]; rfl
  have e5 : readDirection b' = readDirection b := by rw [ho]; rfl
  have e6 : Shading.create b' = Shading.create b := by rw [ho]; rfl
  have e7 : EqvTemp.create b' = EqvTemp.create b := by rw [ho]; rfl
  have e8 : ∀ s, Transmission.create b' s = Transmission.create b s := by intro s; rw [ho]; rfl
  unfold getBoundarySimple
  rw [e1, e2, e3, e4, e5, e6, e7]
  cases hT : BType.ofString b.boundaryType with
  | error e => exact rfl
  | ok T =>
  refine SameRun.bind (R := fun x x' => x = x' ∧ x = T) ⟨rfl, rfl⟩ ?_
  rintro t _ ⟨rfl, rfl⟩
  refine SameRun.bind (SameRun.of_eq rfl) ?_
  rintro sun _ rfl
  refine SameRun.bind (SameRun.of_eq rfl) ?_
  rintro td _ rfl
  refine SameRun.bind (R := fun _ _ => True) ?_ ?_
  · rcases H.next with h | ⟨s, s', h, h', hs, hs'⟩
    · have : readNextRoom b' = readNextRoom b := by rw [readNextRoom, readNextRoom, e1, h]
      rw [this]
      cases readNextRoom b <;> first | exact rfl | trivial
    · obtain ⟨k, hk⟩ := readNextRoom_ok h hs
      obtain ⟨k', hk'⟩ := readNextRoom_ok h' hs'
      rw [hk, hk']; trivial
  intro k k' _
  refine SameRun.bind (SameRun.of_eq rfl) ?_
  rintro rear _ rfl
  refine SameRun.bind (SameRun.of_eq rfl) ?_
  rintro dir _ rfl
  refine SameRun.bind (R := fun _ _ => True) ?_ ?_
  · rcases H.rIn with h | ⟨-, h, h'⟩
    · have : readHi b' = readHi b := by rw [readHi, readHi, h]
      rw [this]
      cases readHi b <;> first | exact rfl | trivial
    · rw [readHi, readHi, if_neg h, if_neg h']; trivial
  intro hi hi' _
  refine SameRun.bind (SameRun.of_eq rfl) ?_
  rintro sh _ rfl
  refine SameRun.bind (SameRun.of_eq rfl) ?_
  rintro oet _ rfl
  refine SameRun.bind (SameRun.of_eq rfl) ?_
  rintro θ _ rfl
  rw [e8]
  refine SameRun.bind (SameRun.of_eq rfl) ?_
  rintro tsr _ rfl
  refine SameRun.bind (SameRun.of_eq rfl) ?_
  rintro q _ rfl
  refine ⟨?_, rfl⟩
  have a1 : b'.id = b.id := by rw [ho]
  have a2 : b'.connectedRoom = b.connectedRoom := by rw [ho]
  have a3 : b'.area = b.area := by rw [ho]
  have a4 : b'.isFloor = b.isFloor := by rw [ho]
  have a5 : b'.isSolarAbsorbed = b.isSolarAbsorbed := by rw [ho]
  have a6 : b'.hC = b.hC := by rw [ho]
  simp only [Bs.core, a1, a2, a3, a4, a5, a6]

/-- The response factors of alike parts are the same. -/
theorem spec_alike {b b' : BoundaryDict} (H : PartAlike 0.000001 b b') {t : BType} (ht : BType.ofString b.boundaryType = .ok t) :
    SameRun (fun s s' => readResponse s = readResponse s') (boundarySpec b t) (boundarySpec b' t) := by
  have er : b'.rOut = b.rOut := by rw [H.others]
  have hl : SameRun (fun l l' => LayersAlike 0.000001 l l' ∨ l = l') (key b.layers) (key b'.layers) := by
    rcases H.layers with h | ⟨l, l', h, h', hs⟩
    · rw [h]
      cases b.layers with
      | none => exact rfl
      | some l => exact Or.inr rfl
    · rw [h, h']; exact Or.inl hs
  have hu : ¬ Layered b → b'.uValue = b.uValue ∧ b'.rIn = b.rIn := fun hn =>
    ⟨H.uValue.resolve_right hn, H.rIn.resolve_right fun h => hn h.1⟩
  have hkind : (t = .transparentPart ∨ t = .opaquePart) → ¬ Layered b := by
    intro h hb
    unfold BType.ofString at ht
    rcases hb with hb | hb | hb <;> rw [hb] at ht <;> rcases h with rfl | rfl <;> simp at ht
  have envelope : ∀ {t : BType}, t = .generalPart ∨ t = .internal → SameRun (fun s s' => readResponse s = readResponse s')
      (do let l ← key b.layers; let r ← key b.rOut; .ok (SpecJson.layers t.value l r))
      (do let l ← key b'.layers; let r ← key b'.rOut; .ok (SpecJson.layers t.value l r)) := by
    intro t ht
    refine hl.bind fun l l' h => ?_
    rw [er]
    refine SameRun.bind (SameRun.of_eq rfl) ?_
    rintro r _ rfl
    show readResponse _ = readResponse _
    rcases h with h | rfl
    · obtain ⟨rf, h1, h2⟩ := readResponse_layers ht l r
      obtain ⟨rf', h1', h2'⟩ := readResponse_layers ht l' r
      rw [h1, h1', ← h2, ← h2', RF.response_congr h]
    · rfl
  cases t with
  | internal => exact envelope (Or.inr rfl)
  | generalPart => exact envelope (Or.inl rfl)
  | ground =>
    refine hl.bind fun l l' h => ?_
    show readResponse _ = readResponse _
    rcases h with h | rfl
    · obtain ⟨rf, h1, h2⟩ := readResponse_ground l
      obtain ⟨rf', h1', h2'⟩ := readResponse_ground l'
      rw [h1, h1', ← h2, ← h2', RF.response_congr h]
    · rfl
  | transparentPart =>
    obtain ⟨h1, h2⟩ := hu (hkind (Or.inl rfl))
    simp only [boundarySpec]
    rw [h1, h2]
    refine SameRun.bind (SameRun.of_eq rfl) ?_
    rintro u _ rfl
    exact rfl
  | opaquePart =>
    obtain ⟨h1, h2⟩ := hu (hkind (Or.inr rfl))
    simp only [boundarySpec]
    rw [h1, h2]
    refine SameRun.bind (SameRun.of_eq rfl) ?_
    rintro u _ rfl
    exact rfl

/-! ## What is made of the parts -/

theorem areaWhere_core (bss : List Bs) (i : ℤ) (f : Bs → Bool) (hf : ∀ b, f b.core = f b) : areaWhere (bss.map Bs.core) i f = areaWhere bss i f := by
  unfold areaWhere
  induction bss with
  | nil => rfl
  | cons b bss ih =>
    have e : (decide (b.core.room = i) && f b.core) = (decide (b.room = i) && f b) := by rw [hf]; rfl
    rw [List.map_cons, List.filter_cons, List.filter_cons, e]
    split
    · rw [List.map_cons, List.map_cons, List.sum_cons, List.sum_cons, ih]; rfl
    · exact ih

theorem areaWhere_alike {bss bss' : List Bs} (h : bss.map Bs.core = bss'.map Bs.core) (i : ℤ) (f : Bs → Bool) (hf : ∀ b, f b.core = f b) :
    areaWhere bss i f = areaWhere bss' i f := by
  rw [← areaWhere_core bss i f hf, ← areaWhere_core bss' i f hf, h]

theorem roomSolar_alike {bss bss' : List Bs} (h : bss.map Bs.core = bss'.map Bs.core) (n : ℕ) : roomSolar bss n = roomSolar bss' n := by
  have e : ∀ (bss : List Bs) (i : ℤ), (bss.filter fun b => b.room = i).map Bs.qTrsSol
      = ((bss.map Bs.core).filter fun b => b.room = i).map Bs.qTrsSol := by
    intro bss i
    rw [List.filter_map, List.map_map]
    rfl
  unfold roomSolar
  congr 1
  funext i
  rw [e bss, e bss', h]

theorem checkParts_alike {bss bss' : List Bs} (h : bss.map Bs.core = bss'.map Bs.core) {rooms rooms' : List RoomDict} (hr : rooms.length = rooms'.length) :
    checkParts rooms bss = checkParts rooms' bss' := by
  have e : ∀ (bss : List Bs) (i : ℤ), (∃ b ∈ bss, b.room = i) ↔ ∃ b ∈ bss.map Bs.core, b.room = i := by
    intro bss i
    constructor
    · rintro ⟨b, hb, h⟩; exact ⟨_, List.mem_map_of_mem hb, h⟩
    · rintro ⟨c, hc, h⟩
      obtain ⟨b, hb, rfl⟩ := List.mem_map.1 hc
      exact ⟨b, hb, h⟩
  unfold checkParts
  rw [hr]
  refine if_congr ?_ rfl rfl
  refine forall₂_congr fun i _ => ?_
  rw [e bss, e bss', h]

theorem radiativeRoom_alike {rooms rooms' : List RoomDict} (h : List.Forall₂ RoomAlike rooms rooms') (i : ℤ) :
    isRadiativeRoom rooms i = isRadiativeRoom rooms' i := by
  unfold isRadiativeRoom
  generalize i.toNat = k
  induction h generalizing k with
  | nil => rfl
  | @cons r r' _ _ hr _ ih =>
    cases k with
    | succ k => exact ih k
    | zero =>
      have no : ∀ e : EquipDict, NotRadiant e → e.kind ≠ "radiative" := by
        rintro e (h | ⟨h, -⟩) <;> rw [h] <;> decide
      simp only [List.getElem?_cons_zero]
      rcases hr.heating with h | ⟨h, h'⟩
      · rw [h]
      · rw [decide_eq_false (no _ h), decide_eq_false (no _ h')]

theorem json_alike (rnd : ℕ → ℝ → ℝ) {rooms rooms' : List RoomDict} (hr : List.Forall₂ RoomAlike rooms rooms') {bss bss' : List Bs}
    (h : bss.map Bs.core = bss'.map Bs.core) {b b' : Bs} (hb : b.core = b'.core) {s s' : SpecJson} (hs : readResponse s = readResponse s') (n m : ℕ) :
    readPart n m (boundaryJson rnd rooms bss b s) = readPart n m (boundaryJson rnd rooms' bss' b' s') := by
  have a1 : b.bType = b'.bType := by have := congrArg Bs.bType hb; exact this
  have a2 : b.room = b'.room := by have := congrArg Bs.room hb; exact this
  have a3 : b.area = b'.area := by have := congrArg Bs.area hb; exact this
  have a4 : b.hC = b'.hC := by have := congrArg Bs.hC hb; exact this
  have a5 : b.isSolarAbsorbed = b'.isSolarAbsorbed := by have := congrArg Bs.isSolarAbsorbed hb; exact this
  have a6 : b.hTd = b'.hTd := by have := congrArg Bs.hTd hb; exact this
  have a7 : b.isFloor = b'.isFloor := by have := congrArg Bs.isFloor hb; exact this
  have a8 : b.id = b'.id := by have := congrArg Bs.id hb; exact this
  have a9 : b.rear = b'.rear := by have := congrArg Bs.rear hb; exact this
  have f1 : ∀ i, areaWhere bss i (fun c => c.isFloor) = areaWhere bss' i (fun c => c.isFloor) := fun i => areaWhere_alike h i _ fun _ => rfl
  have f2 : ∀ i, areaWhere bss i (fun c => !c.isFloor) = areaWhere bss' i (fun c => !c.isFloor) := fun i => areaWhere_alike h i _ fun _ => rfl
  have i1 : inRooms rooms b = inRooms rooms' b' := by unfold inRooms; rw [a2, hr.length_eq]
  have i2 : viewFactor bss b = viewFactor bss' b' := by unfold viewFactor; rw [a7, a3, a2, f1, f2]
  have i3 : heatingShare bss (isRadiativeRoom rooms b.room) b = heatingShare bss' (isRadiativeRoom rooms' b'.room) b' := by
    unfold heatingShare; rw [a7, a3, a2, f1, radiativeRoom_alike hr]
  have i4 : kInside rnd b = kInside rnd b' := by unfold kInside; rw [a1, a6, a8, a9]
  unfold readPart boundaryJson
  simp only []
  rw [a1, a2, a3, a4, a5, a6, i1, i2, i4, hs]
  rw [a2] at i3
  rw [i3]

/-! ## Rooms -/

/-- What `calc` reads of a room depends on the heating equipment only if it is radiant. -/
theorem equip_alike {r r' : RoomDict} (H : RoomAlike r r') :
    SameRun (fun e e' : Equip => e.radiativeCapacity = e'.radiativeCapacity) (Equip.read r.heating) (Equip.read r'.heating) := by
  have none : ∀ e : EquipDict, NotRadiant e → ∃ q, Equip.read e = .ok q ∧ q.radiativeCapacity = none := by
    rintro e (h | ⟨h, s, hs⟩)
    · exact ⟨_, by rw [Equip.read, h]; rfl, rfl⟩
    · exact ⟨.convective s, by rw [Equip.read, h, hs]; rfl, rfl⟩
  rcases H.heating with h | ⟨h, h'⟩
  · rw [h]
    cases Equip.read r.heating <;> exact rfl
  · obtain ⟨q, h1, h2⟩ := none _ h
    obtain ⟨q', h1', h2'⟩ := none _ h'
    rw [h1, h1']
    exact h2.trans h2'.symm

theorem zipSpaces_alike {k : ℕ} {rooms rooms' : List RoomDict} (hr : List.Forall₂ RoomAlike rooms rooms') : ∀ {hes hes' : List Equip},
    List.Forall₂ (fun e e' : Equip => e.radiativeCapacity = e'.radiativeCapacity) hes hes' → ∀ (ces : List Equip) (v : List (Fin k → ℝ)),
      List.Forall₂ (fun s s' => ∀ n, readSpace n s = readSpace n s') (zipSpaces rooms hes ces v) (zipSpaces rooms' hes' ces v) := by
  induction hr with
  | nil => intro hes hes' _ ces v; simp only [zipSpaces]; exact List.Forall₂.nil
  | @cons r r' _ _ h _ ih =>
    intro hes hes' he ces v
    cases he with
    | nil => simp only [zipSpaces]; exact List.Forall₂.nil
    | @cons e e' _ _ h1 h2 =>
      cases ces with
      | nil => simp only [zipSpaces]; exact List.Forall₂.nil
      | cons c ces =>
        cases v with
        | nil => simp only [zipSpaces]; exact List.Forall₂.nil
        | cons x v =>
          simp only [zipSpaces]
          refine List.Forall₂.cons (fun n => ?_) (ih h2 ces v)
          have a1 : r'.volume = r.volume := by rw [h.others]
          have a2 : r'.vent = r.vent := by rw [h.others]
          have a3 : r'.naturalVentTime = r.naturalVentTime := by rw [h.others]
          simp only [readSpace, makeSpace, readRadiantCooling, readRac, h1, a1, a2, a3]

theorem forall₂_map {α β : Type} {R : α → α → Prop} {f : α → β} (h : ∀ a b, R a b → f a = f b) {l l' : List α} (hl : List.Forall₂ R l l') :
    l.map f = l'.map f := by
  induction hl with
  | nil => rfl
  | cons h1 _ ih => rw [List.map_cons, List.map_cons, h _ _ h1, ih]

theorem forall₂_mapM {α β : Type} {R : α → α → Prop} {f : α → Except PyErr β} (h : ∀ a b, R a b → f a = f b) {l l' : List α}
    (hl : List.Forall₂ R l l') : l.mapM f = l'.mapM f := by
  induction hl with
  | nil => rfl
  | cons h1 _ ih => rw [List.mapM_cons, List.mapM_cons, h _ _ h1, ih]

theorem spaces_alike {rooms rooms' : List RoomDict} (hr : List.Forall₂ RoomAlike rooms rooms') :
    SameRun (List.Forall₂ fun s s' => ∀ n, readSpace n s = readSpace n s') (makeSpaces rooms) (makeSpaces rooms') := by
  have e1 : checkIds rooms = checkIds rooms' := by
    unfold checkIds
    rw [hr.length_eq, forall₂_map (fun a b h => by rw [h.others]) hr]
  have e2 : (rooms.mapM fun r => RoomType.ofString r.roomType) = rooms'.mapM fun r => RoomType.ofString r.roomType :=
    forall₂_mapM (fun a b h => by rw [h.others]) hr
  have e3 : (rooms.mapM fun r => Equip.read r.cooling) = rooms'.mapM fun r => Equip.read r.cooling :=
    forall₂_mapM (fun a b h => by rw [h.others]) hr
  have e4 : ∀ n, ventMatrix n rooms = ventMatrix n rooms' := fun n => forall₂_mapM (fun a b h => by rw [h.others]) hr
  unfold makeSpaces
  rw [e1, e2, e3]
  refine SameRun.bind (SameRun.of_eq rfl) ?_
  rintro _ _ -
  refine SameRun.bind (SameRun.of_eq rfl) ?_
  rintro types _ rfl
  refine SameRun.bind (SameRun.of_eq rfl) ?_
  rintro _ _ -
  refine SameRun.bind (SameRun.of_eq rfl) ?_
  rintro _ _ -
  refine SameRun.bind (SameRun.of_eq rfl) ?_
  rintro _ _ -
  refine SameRun.bind (SameRun.of_eq rfl) ?_
  rintro _ _ -
  refine SameRun.bind (SameRun.of_eq rfl) ?_
  rintro _ _ -
  refine SameRun.bind (SameRun.mapM (fun a b h => equip_alike h) hr) ?_
  intro hes hes' hh
  refine SameRun.bind (SameRun.of_eq rfl) ?_
  rintro ces _ rfl
  rw [hr.length_eq, e4]
  refine SameRun.bind (SameRun.of_eq rfl) ?_
  rintro v _ rfl
  exact zipSpaces_alike hr hh ces v

/-! ## The files -/

/-- Files from which `calc` reads the same. -/
structure FilesAlike (o o' : Output) : Prop where
  building : o.building = o'.building
  spaces : List.Forall₂ (fun s s' => ∀ n, readSpace n s = readSpace n s') o.spaces o'.spaces
  boundaries : List.Forall₂ (fun b b' => ∀ n m, readPart n m b = readPart n m b') o.boundaries o'.boundaries
  schedules : o.schedules = o'.schedules
  qTrsSol : o.qTrsSol = o'.qTrsSol
  thetaOSol : o.thetaOSol = o'.thetaOSol

theorem forall₂_zip {α β γ δ : Type} {R : α → β → Prop} {Q : γ → δ → Prop} {l : List α} {l' : List β} {k : List γ} {k' : List δ}
    (h : List.Forall₂ R l l') (hk : List.Forall₂ Q k k') : List.Forall₂ (fun p q => R p.1 q.1 ∧ Q p.2 q.2) (l.zip k) (l'.zip k') := by
  induction h generalizing k k' with
  | nil => exact List.Forall₂.nil
  | cons h1 _ ih =>
    cases hk with
    | nil => exact List.Forall₂.nil
    | cons h2 h3 => exact List.Forall₂.cons ⟨h1, h2⟩ (ih h3)

theorem boundaries_alike (rnd : ℕ → ℝ → ℝ) {rooms rooms' : List RoomDict} (hr : List.Forall₂ RoomAlike rooms rooms') {bds bds' : List BoundaryDict}
    {bss bss' : List Bs} (h : bss.map Bs.core = bss'.map Bs.core)
    (hp : List.Forall₂ (fun p p' : BoundaryDict × Bs => PartAlike 0.000001 p.1 p'.1 ∧ p.2.core = p'.2.core ∧ BType.ofString p.1.boundaryType = .ok p.2.bType)
      (bds.zip bss) (bds'.zip bss')) :
    SameRun (List.Forall₂ fun b b' => ∀ n m, readPart n m b = readPart n m b') (makeBoundaries rnd rooms bds bss) (makeBoundaries rnd rooms' bds' bss') := by
  have hcore : List.Forall₂ (fun b b' : Bs => b.core = b'.core) bss bss' := by
    have : ∀ {l l' : List Bs}, l.map Bs.core = l'.map Bs.core → List.Forall₂ (fun b b' : Bs => b.core = b'.core) l l' := by
      intro l
      induction l with
      | nil => intro l' h; cases l' with
        | nil => exact List.Forall₂.nil
        | cons _ _ => cases h
      | cons a l ih => intro l' h; cases l' with
        | nil => cases h
        | cons b l' =>
          rw [List.map_cons, List.map_cons, List.cons.injEq] at h
          exact List.Forall₂.cons h.1 (ih h.2)
    exact this h
  unfold makeBoundaries
  rw [checkParts_alike h hr.length_eq]
  refine SameRun.bind (SameRun.of_eq rfl) ?_
  rintro _ _ -
  refine SameRun.bind (SameRun.mapM (R := fun s s' => readResponse s = readResponse s') (fun p p' h => ?_) hp) ?_
  · have : p'.2.bType = p.2.bType := by have := congrArg Bs.bType h.2.1; exact this.symm
    rw [this]
    exact spec_alike h.1 h.2.2
  · intro specs specs' hs
    show List.Forall₂ _ (List.map _ _) (List.map _ _)
    have := forall₂_zip hcore hs
    rw [List.forall₂_map_left_iff, List.forall₂_map_right_iff]
    exact this.imp fun p q hpq n m => json_alike rnd hr h hpq.1 hpq.2 n m

theorem files_alike (rnd : ℕ → ℝ → ℝ) (w : List Step) (f : ScheduleFile) {d d' : Input} (H : InputAlike 0.000001 d d') :
    SameRun FilesAlike (makeHouse rnd w f d) (makeHouse rnd w f d') := by
  have hpb : SameRun (fun bss bss' => bss.map Bs.core = bss'.map Bs.core ∧
      List.Forall₂ (fun p p' : BoundaryDict × Bs => PartAlike 0.000001 p.1 p'.1 ∧ p.2.core = p'.2.core ∧ BType.ofString p.1.boundaryType = .ok p.2.bType)
        (d.boundaries.zip bss) (d'.boundaries.zip bss')) (d.boundaries.mapM (getBoundarySimple w)) (d'.boundaries.mapM (getBoundarySimple w)) := by
    have gen : ∀ {l l' : List BoundaryDict}, List.Forall₂ (PartAlike 0.000001) l l' →
        SameRun (fun bss bss' => bss.map Bs.core = bss'.map Bs.core ∧
          List.Forall₂ (fun p p' : BoundaryDict × Bs => PartAlike 0.000001 p.1 p'.1 ∧ p.2.core = p'.2.core ∧
            BType.ofString p.1.boundaryType = .ok p.2.bType) (l.zip bss) (l'.zip bss')) (l.mapM (getBoundarySimple w)) (l'.mapM (getBoundarySimple w)) := by
      intro l l' h
      induction h with
      | nil => exact ⟨rfl, List.Forall₂.nil⟩
      | cons h1 _ ih =>
        rw [List.mapM_cons, List.mapM_cons]
        refine (part_alike w h1).bind fun x x' hx => ih.bind fun xs xs' hxs => ?_
        refine ⟨?_, List.Forall₂.cons ⟨h1, hx⟩ hxs.2⟩
        rw [List.map_cons, List.map_cons, hx.1, hxs.1]
    exact gen H.parts
  unfold makeHouse
  refine hpb.bind fun bss bss' hb => ?_
  have e1 : (d.rooms.map RoomDict.floorArea) = d'.rooms.map RoomDict.floorArea := forall₂_map (fun a b h => by rw [h.others]) H.rooms
  have e2 : ∀ np, (d.rooms.mapM fun r => compiled f np r.name r.floorArea) = d'.rooms.mapM fun r => compiled f np r.name r.floorArea :=
    fun np => forall₂_mapM (fun a b h => by rw [h.others]) H.rooms
  rw [H.rooms.length_eq, roomSolar_alike hb.1, H.building, e1]
  simp only [e2]
  refine SameRun.bind (SameRun.of_eq rfl) ?_
  rintro q _ rfl
  refine SameRun.bind (SameRun.of_eq rfl) ?_
  rintro sch _ rfl
  refine SameRun.bind (SameRun.of_eq rfl) ?_
  rintro bd _ rfl
  refine SameRun.bind (spaces_alike H.rooms) ?_
  intro sp sp' hsp
  refine SameRun.bind (boundaries_alike rnd H.rooms hb.1 hb.2) ?_
  intro bj bj' hbj
  refine ⟨rfl, hsp, hbj, rfl, rfl, ?_⟩
  have e : ∀ l : List Bs, l.map Bs.thetaOSol = (l.map Bs.core).map Bs.thetaOSol := fun l => by rw [List.map_map]; rfl
  show bss.map Bs.thetaOSol = bss'.map Bs.thetaOSol
  rw [e bss, e bss', hb.1]

/-! ## The results -/

/-- `calcFiles` for given numbers of rooms and parts. -/
noncomputable def calcRead (rnd : ℕ → ℝ → ℝ) (solve : List ℝ → ℝ) (temp hum : Fin 35040 → ℝ) (hourly dMain dRunUp dRunUpBuild : ℤ) (b : BuildingJson)
    (sch : List Compiled) (q θ : List (List ℝ)) (n m : ℕ) (fs : ℕ → Except PyErr (SpaceIn n)) (fp : ℕ → Except PyErr (PartIn n m)) :
    Except PyErr (Digest × Table) := do
  let s ← forFin n fun i => fs i
  let p ← forFin m fun j => fp j
  readInfiltration b
  let h := houseOf b s p
  calcTables rnd h (getHr solve h.area h.room) (fun t : Fin 35040 => {
    thetaO := temp t
    xO := hum t
    vLocal := fun i => (sch[i.1]?.map fun c => c.vLocal t).getD 0
    qGen := fun i => (sch[i.1]?.map fun c => c.qGen t).getD 0
    xGen := fun i => (sch[i.1]?.map fun c => c.xGen t).getD 0
    nHum := fun i => (sch[i.1]?.map fun c => c.nHum t).getD 0
    acDemand := fun i => (sch[i.1]?.map fun c => c.acDemand t).getD 0
    qTrsSol := fun i => (q[i.1]?.bind fun l => l[t.1]?).getD 0
    thetaOSol := fun j => (θ[j.1]?.bind fun l => l[t.1]?).getD 0 }) hourly dMain dRunUp dRunUpBuild

/-- The entry of a list, read by `f`. -/
def entry {α β : Type} (f : α → Except PyErr β) (l : List α) (k : ℕ) : Except PyErr β :=
  match l[k]? with
  | some a => f a
  | none => .error .indexError

theorem calcFiles_eq (rnd : ℕ → ℝ → ℝ) (solve : List ℝ → ℝ) (temp hum : Fin 35040 → ℝ) (hourly dMain dRunUp dRunUpBuild : ℤ) (o : Output) :
    calcFiles rnd solve temp hum hourly dMain dRunUp dRunUpBuild o = calcRead rnd solve temp hum hourly dMain dRunUp dRunUpBuild o.building o.schedules
      o.qTrsSol o.thetaOSol o.spaces.length o.boundaries.length (entry (readSpace _) o.spaces) (entry (readPart _ _) o.boundaries) := by
  have e1 : (fun i : Fin o.spaces.length => entry (readSpace o.spaces.length) o.spaces i.1) = fun i => readSpace o.spaces.length o.spaces[i] := by
    funext i
    simp only [entry, List.getElem?_eq_getElem i.2]
    rfl
  have e2 : (fun j : Fin o.boundaries.length => entry (readPart o.spaces.length o.boundaries.length) o.boundaries j.1)
      = fun j => readPart o.spaces.length o.boundaries.length o.boundaries[j] := by
    funext j
    simp only [entry, List.getElem?_eq_getElem j.2]
    rfl
  unfold calcFiles calcRead readHouse
  rw [e1, e2]
  simp only [bind_assoc]
  rfl

theorem entry_alike {α β : Type} {f : α → Except PyErr β} {l l' : List α} (h : List.Forall₂ (fun a a' => f a = f a') l l') (k : ℕ) :
    entry f l k = entry f l' k := by
  induction h generalizing k with
  | nil => rfl
  | cons h _ ih =>
    cases k with
    | zero => exact h
    | succ k => exact ih k

theorem calcFiles_alike (rnd : ℕ → ℝ → ℝ) (solve : List ℝ → ℝ) (temp hum : Fin 35040 → ℝ) (hourly dMain dRunUp dRunUpBuild : ℤ) {o o' : Output}
    (H : FilesAlike o o') :
    calcFiles rnd solve temp hum hourly dMain dRunUp dRunUpBuild o = calcFiles rnd solve temp hum hourly dMain dRunUp dRunUpBuild o' := by
  rw [calcFiles_eq, calcFiles_eq, H.building, H.schedules, H.qTrsSol, H.thetaOSol, H.spaces.length_eq, H.boundaries.length_eq]
  congr 1
  · funext k; exact entry_alike (H.spaces.imp fun a b h => h _) k
  · funext k; exact entry_alike (H.boundaries.imp fun a b h => h _ _) k

/-- **Inputs that differ at most in the entries named in `InputAlike` give the same tables, or the same error.** -/
theorem calculate_alike (rnd : ℕ → ℝ → ℝ) (solve : List ℝ → ℝ) (w : List Step) (hum : Fin 35040 → ℝ) (f : ScheduleFile)
    (hourly dMain dRunUp dRunUpBuild : ℤ) {d d' : Input} (H : InputAlike 0.000001 d d') :
    calculate rnd solve w hum f hourly dMain dRunUp dRunUpBuild d = calculate rnd solve w hum f hourly dMain dRunUp dRunUpBuild d' := by
  refine SameRun.eq ?_
  unfold calculate
  exact (files_alike rnd w f H).bind fun o o' h => SameRun.of_eq (calcFiles_alike rnd solve _ hum hourly dMain dRunUp dRunUpBuild h)

end HLC.Init
