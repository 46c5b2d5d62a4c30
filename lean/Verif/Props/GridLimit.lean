/-
C193: with finer and finer grids the loss, the mean confidence and the tree settle.
-/
import Verif.Props.LeafLimits
import Verif.Spec.GridLimit
import Mathlib.MeasureTheory.Integral.Bochner.SumMeasure

namespace PyPDP
open Spec MeasureTheory ProbabilityTheory Filter Topology

section riemann

instance : IsProbabilityMeasure (volume.restrict (Set.Icc (0 : ℝ) 1)) := ⟨by simp⟩
instance {k : Nat} : IsProbabilityMeasure (unitCube k) := by unfold unitCube; infer_instance

/-- the cell of a coordinate, among `m + 1` cells of equal size -/
noncomputable def axisCell (m : Nat) (x : ℝ) : Fin (m + 1) := ⟨min ⌊((m + 1 : ℕ) : ℝ) * x⌋₊ m, by omega⟩

theorem axisCell_measurable (m : Nat) : Measurable (axisCell m) := by
  have h : Measurable fun x : ℝ => min ⌊((m + 1 : ℕ) : ℝ) * x⌋₊ m := (Nat.measurable_floor.comp (measurable_const_mul _)).min measurable_const
  refine measurable_to_countable' fun i => ?_
  have : axisCell m ⁻¹' {i} = (fun x : ℝ => min ⌊((m + 1 : ℕ) : ℝ) * x⌋₊ m) ⁻¹' {i.1} := by
    ext x
    simp [axisCell, Fin.ext_iff]
  rw [this]
  exact h (measurableSet_singleton _)

theorem axisCell_le {m : Nat} {x : ℝ} (hx : x ∈ Set.Icc (0 : ℝ) 1) : ((axisCell m x).1 : ℝ) ≤ (m + 1) * x ∧ (m + 1) * x ≤ (axisCell m x).1 + 1 := by
  have h0 : 0 ≤ ((m + 1 : ℕ) : ℝ) * x := mul_nonneg (by positivity) hx.1
  have h1 := Nat.floor_le h0
  have h2 := (Nat.lt_floor_add_one (((m + 1 : ℕ) : ℝ) * x)).le
  simp only [axisCell]
  push_cast at h1 h2 ⊢
  refine ⟨(min_le_left _ _).trans h1, ?_⟩
  rcases le_total (⌊((m : ℝ) + 1) * x⌋₊ : ℝ) (m : ℝ) with h | h
  · rw [min_eq_left h]; exact h2
  · rw [min_eq_right h]
    nlinarith [hx.2, (Nat.cast_nonneg m : (0 : ℝ) ≤ m)]

theorem axisCell_eq {m : Nat} {i : Fin (m + 1)} {x : ℝ} (h1 : (i.1 : ℝ) / (m + 1) ≤ x) (h2 : x < (i.1 + 1) / (m + 1)) : axisCell m x = i := by
  have hm : (0 : ℝ) < m + 1 := by positivity
  rw [div_le_iff₀ hm] at h1
  rw [lt_div_iff₀ hm] at h2
  have : ⌊((m + 1 : ℕ) : ℝ) * x⌋₊ = i.1 := by
    rw [Nat.floor_eq_iff (by push_cast; nlinarith [(Nat.cast_nonneg i.1 : (0 : ℝ) ≤ i.1)])]
    push_cast
    constructor <;> linarith
  ext
  simp only [axisCell, this]
  omega

theorem axisCell_measure (m : Nat) (i : Fin (m + 1)) : volume.restrict (Set.Icc (0 : ℝ) 1) (axisCell m ⁻¹' {i}) = ENNReal.ofReal (1 / (m + 1)) := by
  have hm : (0 : ℝ) < m + 1 := by positivity
  have hi : (i.1 : ℝ) + 1 ≤ m + 1 := by exact_mod_cast i.2
  rw [Measure.restrict_apply (axisCell_measurable m (measurableSet_singleton i))]
  apply le_antisymm
  · have : axisCell m ⁻¹' {i} ∩ Set.Icc (0 : ℝ) 1 ⊆ Set.Icc ((i.1 : ℝ) / (m + 1)) ((i.1 + 1) / (m + 1)) := by
      rintro x ⟨hx, hx1⟩
      obtain ⟨a, b⟩ := axisCell_le (m := m) hx1
      rw [show axisCell m x = i from hx] at a b
      constructor
      · rw [div_le_iff₀ hm]; linarith
      · rw [le_div_iff₀ hm]; linarith
    refine (measure_mono this).trans ?_
    rw [Real.volume_Icc]
    apply ENNReal.ofReal_le_ofReal
    rw [← sub_div]
    simp
  · have : Set.Ico ((i.1 : ℝ) / (m + 1)) ((i.1 + 1) / (m + 1)) ⊆ axisCell m ⁻¹' {i} ∩ Set.Icc (0 : ℝ) 1 := by
      rintro x ⟨a, b⟩
      exact ⟨axisCell_eq a b, le_trans (by positivity) a, b.le.trans ((div_le_one hm).2 hi)⟩
    refine le_trans ?_ (measure_mono this)
    rw [Real.volume_Ico]
    apply ENNReal.ofReal_le_ofReal
    rw [← sub_div]
    simp

/-- a sum over the cells is an integral -/
theorem axisCell_sum (k m : Nat) (F : (Fin k → Fin (m + 1)) → ℝ) :
    ∫ x, F (fun a => axisCell m (x a)) ∂(unitCube k) = (∑ j, F j) / ((m + 1 : ℕ) : ℝ) ^ k := by
  have hmeas : Measurable fun (x : Fin k → ℝ) a => axisCell m (x a) := measurable_pi_iff.2 fun a => (axisCell_measurable m).comp (measurable_pi_apply a)
  have hF : Measurable F := measurable_of_finite F
  rw [← integral_map (φ := fun (x : Fin k → ℝ) a => axisCell m (x a)) (f := F) hmeas.aemeasurable hF.aestronglyMeasurable]
  have : IsProbabilityMeasure ((unitCube k).map fun x a => axisCell m (x a)) := Measure.isProbabilityMeasure_map hmeas.aemeasurable
  rw [integral_fintype Integrable.of_finite, Finset.sum_div]
  refine Finset.sum_congr rfl fun j _ => ?_
  have hval : ((unitCube k).map fun x a => axisCell m (x a)) {j} = ENNReal.ofReal ((1 / (m + 1)) ^ k) := by
    rw [Measure.map_apply hmeas (measurableSet_singleton j)]
    have : (fun (x : Fin k → ℝ) a => axisCell m (x a)) ⁻¹' {j} = Set.pi Set.univ fun a => axisCell m ⁻¹' {j a} := by
      ext x
      simp [funext_iff]
    rw [this, unitCube, Measure.pi_pi]
    simp only [axisCell_measure]
    rw [Finset.prod_const, Finset.card_univ, Fintype.card_fin, ENNReal.ofReal_pow (by positivity)]
  rw [measureReal_def, hval, ENNReal.toReal_ofReal (by positivity), smul_eq_mul]
  push_cast
  rw [one_div, inv_pow]
  field_simp

/-- the grid point of a cell -/
theorem axisCell_near {m : Nat} (hm : 1 ≤ m) {x : ℝ} (hx : x ∈ Set.Icc (0 : ℝ) 1) :
    ((axisCell m x).1 : ℝ) / m ∈ Set.Icc (0 : ℝ) 1 ∧ |((axisCell m x).1 : ℝ) / m - x| ≤ 1 / (m + 1) := by
  have hm0 : (0 : ℝ) < m := by exact_mod_cast hm
  have hi : ((axisCell m x).1 : ℝ) ≤ m := by exact_mod_cast Nat.lt_succ_iff.1 (axisCell m x).2
  have hi0 : (0 : ℝ) ≤ (axisCell m x).1 := Nat.cast_nonneg _
  obtain ⟨a, b⟩ := axisCell_le (m := m) hx
  refine ⟨⟨by positivity, (div_le_one hm0).2 hi⟩, ?_⟩
  obtain ⟨i, hieq⟩ : ∃ i : ℝ, i = (axisCell m x).1 := ⟨_, rfl⟩
  rw [← hieq] at a b hi hi0 ⊢
  obtain ⟨p, hp⟩ : ∃ p : ℝ, p = i / m := ⟨_, rfl⟩
  rw [← hp]
  have hpm : p * m = i := by rw [hp]; field_simp
  have hp1 : p ≤ 1 := by rw [hp]; exact (div_le_one hm0).2 hi
  have hp0 : 0 ≤ p := by rw [hp]; positivity
  rw [abs_le]
  have hm1 : (0 : ℝ) < m + 1 := by positivity
  constructor
  · rw [neg_le, le_div_iff₀ hm1]; nlinarith
  · rw [le_div_iff₀ hm1]; nlinarith

theorem cube_ae (k : Nat) : ∀ᵐ x ∂(unitCube k), x ∈ Set.Icc (0 : Fin k → ℝ) 1 := by
  have : ∀ᵐ x ∂(unitCube k), ∀ a, x a ∈ Set.Icc (0 : ℝ) 1 := by
    refine ae_all_iff.2 fun a => ?_
    have h1 : (unitCube k).map (Function.eval a) = volume.restrict (Set.Icc (0 : ℝ) 1) := (measurePreserving_eval _ a).map_eq
    have h2 : ∀ᵐ y ∂(volume.restrict (Set.Icc (0 : ℝ) 1)), y ∈ Set.Icc (0 : ℝ) 1 := ae_restrict_mem measurableSet_Icc
    rw [← h1] at h2
    exact ae_of_ae_map (measurable_pi_apply a).aemeasurable h2
  filter_upwards [this] with x hx
  exact ⟨fun a => (hx a).1, fun a => (hx a).2⟩

/-- the average over ever finer grids is the integral over the cube -/
theorem cells_limit {k : Nat} {f : (Fin k → ℝ) → ℝ} (hf : ContinuousOn f (Set.Icc 0 1)) :
    Tendsto (fun m : ℕ => (∑ j : Fin k → Fin (m + 1), f fun a => ((j a).1 : ℝ) / m) / ((m + 1 : ℕ) : ℝ) ^ k) atTop (𝓝 (∫ x, f x ∂(unitCube k))) := by
  obtain ⟨C, hC⟩ := isCompact_Icc.exists_bound_of_continuousOn hf
  simp only [← axisCell_sum k _ fun j => f fun a => ((j a).1 : ℝ) / _]
  have hin : ∀ {m : ℕ}, 1 ≤ m → ∀ {x : Fin k → ℝ}, x ∈ Set.Icc 0 1 → (fun a => ((axisCell m (x a)).1 : ℝ) / m) ∈ Set.Icc (0 : Fin k → ℝ) 1 := by
    intro m hm x hx
    have h := fun a => (axisCell_near hm (x := x a) ⟨hx.1 a, hx.2 a⟩).1
    exact ⟨fun a => (h a).1, fun a => (h a).2⟩
  refine tendsto_integral_filter_of_dominated_convergence (fun _ => C) ?_ ?_ (integrable_const C) ?_
  · refine Eventually.of_forall fun m => ?_
    have hmeas : Measurable fun (x : Fin k → ℝ) a => axisCell m (x a) := measurable_pi_iff.2 fun a => (axisCell_measurable m).comp (measurable_pi_apply a)
    exact ((measurable_of_finite fun j : Fin k → Fin (m + 1) => f fun a => ((j a).1 : ℝ) / m).comp hmeas).aestronglyMeasurable
  · filter_upwards [eventually_ge_atTop 1] with m hm
    filter_upwards [cube_ae k] with x hx
    exact hC _ (hin hm hx)
  · filter_upwards [cube_ae k] with x hx
    refine (hf x hx).tendsto.comp (tendsto_nhdsWithin_iff.2 ⟨?_, ?_⟩)
    · refine tendsto_pi_nhds.2 fun a => ?_
      have h0 : Tendsto (fun m : ℕ => (1 : ℝ) / (m + 1)) atTop (𝓝 0) := tendsto_one_div_add_atTop_nhds_zero_nat
      rw [tendsto_iff_dist_tendsto_zero]
      refine squeeze_zero' (Eventually.of_forall fun m => dist_nonneg) ?_ h0
      filter_upwards [eventually_ge_atTop 1] with m hm
      rw [Real.dist_eq]
      exact (axisCell_near hm ⟨hx.1 a, hx.2 a⟩).2
    · filter_upwards [eventually_ge_atTop 1] with m hm
      exact hin hm hx

/-- sums over a full grid as sums over index vectors -/
theorem fullGrid_sum {k m : Nat} (hm : 1 ≤ m) {grid : List (List ℝ)} (h : IsFullGrid k (m + 1) grid) (F : List ℝ → ℝ) :
    (grid.map F).sum = ∑ j : Fin k → Fin (m + 1), F (List.ofFn fun a => ((j a).1 : ℝ) / m) := by
  classical
  have hm0 : (m : ℝ) ≠ 0 := by exact_mod_cast (by omega : m ≠ 0)
  have hmem : ∀ t, t ∈ grid ↔ t.length = k ∧ ∀ v ∈ t, ∃ i < m + 1, v = (i : ℝ) / m := by
    intro t
    rw [h.2 t]
    have h1 : ¬ m + 1 = 1 := by omega
    simp only [if_neg h1, Nat.cast_add, Nat.cast_one, add_sub_cancel_right]
  rw [← List.sum_toFinset F h.1]
  symm
  refine Finset.sum_bij (fun j _ => List.ofFn fun a => ((j a).1 : ℝ) / m) ?_ ?_ ?_ fun _ _ => rfl
  · intro j _
    rw [List.mem_toFinset, hmem]
    refine ⟨by simp, fun v hv => ?_⟩
    obtain ⟨a, rfl⟩ := List.mem_ofFn.1 hv
    exact ⟨_, (j a).2, rfl⟩
  · intro j _ j' _ he
    have he := List.ofFn_injective he
    funext a
    have := congrFun he a
    rw [div_left_inj' hm0] at this
    exact Fin.ext (by exact_mod_cast this)
  · intro t ht
    rw [List.mem_toFinset, hmem] at ht
    obtain ⟨hl, hv⟩ := ht
    subst hl
    have := fun a : Fin t.length => hv t[a] (List.getElem_mem _)
    choose j hj1 hj2 using this
    refine ⟨fun a => ⟨j a, hj1 a⟩, Finset.mem_univ _, ?_⟩
    simp only [← hj2]
    exact List.ofFn_getElem

/-- averages over the grid points tend to the integral over the unit cube -/
theorem grid_average {k : Nat} {G : ℕ → List (List ℝ)} (hG : ∀ g, 1 ≤ g → gridPoints k g = .ok (G g)) (hk : 1 ≤ k) {F : List ℝ → ℝ}
    (hF : ContinuousOn (fun t : Fin k → ℝ => F (List.ofFn t)) (Set.Icc 0 1)) :
    Tendsto (fun g : ℕ => ((G g).map F).sum / (G g).length) atTop (𝓝 (∫ t, F (List.ofFn t) ∂(unitCube k))) := by
  rw [← tendsto_add_atTop_iff_nat 1]
  refine (cells_limit hF).congr' ?_
  filter_upwards [eventually_ge_atTop 1] with m hm
  obtain ⟨grid, h1, h2, h3⟩ := C40_grid (K := ℝ) hk (m + 1)
  rw [hG (m + 1) (by omega)] at h1
  obtain rfl := Except.ok.inj h1
  rw [fullGrid_sum hm h3, h2]
  push_cast
  rfl

end riemann

section tree
variable {space : ConfigSpace ℝ} {idx : List Nat} {mu sd : List ℝ → ℝ} {v : List ℝ → List ℝ → ℝ} {possible : List (Hp ℝ)} {N minPoints k : Nat}
  {G : ℕ → List (List ℝ)}

theorem parts_rows {grid : List (List ℝ)} (hg : grid ≠ []) {f : Nat} (hf : f ∉ idx) (t : ℝ) (S : List (List ℝ)) :
    lowerPart f t (S.map (curveAt idx grid mu sd)) = (rowsBelow S f t).map (curveAt idx grid mu sd) ∧
    upperPart f t (S.map (curveAt idx grid mu sd)) = (rowsAbove S f t).map (curveAt idx grid mu sd) := by
  constructor
  · unfold lowerPart rowsBelow
    rw [List.filter_map]
    congr 2
    funext r
    simp only [Function.comp, featureOf_curveAt hg hf]
  · unfold upperPart rowsAbove
    rw [List.filter_map]
    congr 2
    funext r
    simp only [Function.comp, featureOf_curveAt hg hf]

theorem continuous_sum {α : Type} {X : Type} [TopologicalSpace X] {D : Set X} (S : List α) {f : X → α → ℝ} (h : ∀ r ∈ S, ContinuousOn (fun x => f x r) D) :
    ContinuousOn (fun x => (S.map fun r => f x r).sum) D := by
  induction S with
  | nil => simpa using continuousOn_const
  | cons a as ih =>
    simp only [List.map_cons, List.sum_cons]
    exact (h a (by simp)).add (ih fun r hr => h r (by simp [hr]))

/-- the loss per grid point of a set of samples -/
theorem cube_loss (hG : ∀ g, 1 ≤ g → gridPoints k g = .ok (G g)) (hk : 1 ≤ k) {S : List (List ℝ)}
    (hv : ∀ g ≥ 1, ∀ t ∈ G g, ∀ r ∈ S, sd (assignRow idx t r) ^ 2 = v t r)
    (hc : ∀ r ∈ S, ContinuousOn (fun t : Fin k → ℝ => v (List.ofFn t) r) (Set.Icc 0 1)) :
    Tendsto (fun g : ℕ => curveLoss (G g).length (S.map (curveAt idx (G g) mu sd)) / (G g).length) atTop (𝓝 (cubeLoss k v S)) := by
  have hcont : ContinuousOn (fun t : Fin k → ℝ => (S.map fun r => (v (List.ofFn t) r - (S.map fun r => v (List.ofFn t) r).sum / S.length) ^ 2).sum) (Set.Icc 0 1) := by
    refine continuous_sum S fun r hr => ?_
    exact ((hc r hr).sub ((continuous_sum S hc).div_const _)).pow 2
  refine (grid_average (F := fun t => (S.map fun r => (v t r - (S.map fun r => v t r).sum / S.length) ^ 2).sum) hG hk hcont).congr' ?_
  filter_upwards [eventually_ge_atTop 1] with g hg
  rw [curveLoss_samples S (hv g hg)]
  congr 3
  funext t
  have := squares_about_mean (S.map fun r => v t r)
  rw [List.map_map, List.map_map, List.length_map] at this
  exact this

theorem cube_core (hwf : space.WF) (hG : ∀ g, 1 ≤ g → gridPoints k g = .ok (G g)) (hk : 1 ≤ k)
    (hfree : ∀ hp ∈ possible, ∀ f, IsFeature space hp f → f ∉ idx) (hmp : 1 ≤ minPoints) {depth : Int} {S : List (List ℝ)} {conds : List (Cond ℝ)} {d : Nat}
    {R : List (List (List ℝ) × List (Cond ℝ))} (hT : CubeTree k v space possible N minPoints depth S conds d R) :
    (∀ g ≥ 1, ∀ t ∈ G g, ∀ r ∈ S, sd (assignRow idx t r) ^ 2 = v t r) →
    (∀ r ∈ S, ContinuousOn (fun t : Fin k → ℝ => v (List.ofFn t) r) (Set.Icc 0 1)) →
    (∀ p ∈ R, ∀ r ∈ p.1, r ∈ S) ∧ (S ≠ [] → ∀ p ∈ R, p.1 ≠ []) ∧
    ∀ᶠ g in atTop, ∀ (m : Node ℝ) (L : List (Node ℝ)), m.depth = d → m.conds = conds →
      curves m = S.map (curveAt idx (G g) mu sd) → Greedy space possible N minPoints (G g).length depth m L →
      List.Forall₂ (fun p m' => m'.conds = p.2 ∧ curves m' = p.1.map (curveAt idx (G g) mu sd)) R L := by
  have hgne : ∀ g ≥ 1, G g ≠ [] := by
    intro g hg h0
    obtain ⟨grid, h1, h2, -⟩ := C40_grid (K := ℝ) hk g
    rw [hG g hg] at h1
    obtain rfl := Except.ok.inj h1
    rw [h0] at h2
    have : 0 < g ^ k := Nat.pow_pos hg
    simp at h2
    omega
  have hcand : ∀ g ≥ 1, ∀ (S : List (List ℝ)) i j hp f, IsCandidate space possible N minPoints (S.map (curveAt idx (G g) mu sd)) i j hp f ↔
      IsRowCandidate space possible N minPoints S i j hp f := by
    intro g hg S i j hp f
    constructor
    · rintro ⟨a1, a2, a3, a4, a5, a6⟩
      obtain ⟨e1, e2⟩ := parts_rows (mu := mu) (sd := sd) (hgne g hg) (hfree hp (List.mem_of_getElem? a1) f a2) (threshold N j) S
      rw [e1, List.length_map] at a5
      rw [e2, List.length_map] at a6
      exact ⟨a1, a2, a3, a4, a5, a6⟩
    · rintro ⟨a1, a2, a3, a4, a5, a6⟩
      obtain ⟨e1, e2⟩ := parts_rows (mu := mu) (sd := sd) (hgne g hg) (hfree hp (List.mem_of_getElem? a1) f a2) (threshold N j) S
      exact ⟨a1, a2, a3, a4, by rw [e1, List.length_map]; exact a5, by rw [e2, List.length_map]; exact a6⟩
  have hsub : ∀ (S : List (List ℝ)) f t, (∀ r ∈ rowsBelow S f t, r ∈ S) ∧ ∀ r ∈ rowsAbove S f t, r ∈ S := fun S f t =>
    ⟨fun r hr => (List.mem_filter.1 hr).1, fun r hr => (List.mem_filter.1 hr).1⟩
  induction hT with
  | @leaf S conds d hstop =>
    intro hv hc
    refine ⟨by simp, by simp, ?_⟩
    filter_upwards [eventually_ge_atTop 1] with g hg m L hd hcond hcur hGr
    cases hGr with
    | leaf _ _ => exact .cons ⟨hcond, hcur⟩ .nil
    | branch _ h1 _ h3 _ _ _ =>
      exfalso
      rcases hstop with hstop | hstop
      · omega
      · have := h3.1
        rw [hcur, hcand g hg] at this
        exact hstop _ _ _ _ this
  | @branch S conds d i j hp f Ll Lr hk' hb _ _ ihl ihr =>
    intro hv hc
    obtain ⟨il, il', el⟩ := ihl (fun g hg t ht r hr => hv g hg t ht r ((hsub S f _).1 r hr)) fun r hr => hc r ((hsub S f _).1 r hr)
    obtain ⟨ir, ir', er⟩ := ihr (fun g hg t ht r hr => hv g hg t ht r ((hsub S f _).2 r hr)) fun r hr => hc r ((hsub S f _).2 r hr)
    have n1 : rowsBelow S f (threshold N j) ≠ [] := by
      intro h0
      have := hb.cand.left_size
      rw [h0, List.length_nil] at this
      omega
    have n2 : rowsAbove S f (threshold N j) ≠ [] := by
      intro h0
      have := hb.cand.right_size
      rw [h0, List.length_nil] at this
      omega
    refine ⟨fun p hp r hr => (List.mem_append.1 hp).elim (fun h => (hsub S f _).2 r (ir p h r hr)) fun h => (hsub S f _).1 r (il p h r hr),
      fun _ p hp => (List.mem_append.1 hp).elim (ir' n2 p) (il' n1 p), ?_⟩
    have hcost : ∀ f' j' : ℕ, f' ∉ idx →
        Tendsto (fun g : ℕ => splitCost (G g).length N (S.map (curveAt idx (G g) mu sd)) f' j' / (G g).length) atTop (𝓝 (cubeCost k v N S f' j')) := by
      intro f' j' hf'
      have a := cube_loss (mu := mu) hG hk (fun g hg t ht r hr => hv g hg t ht r ((hsub S f' (threshold N j')).1 r hr)) fun r hr => hc r ((hsub S f' (threshold N j')).1 r hr)
      have b := cube_loss (mu := mu) hG hk (fun g hg t ht r hr => hv g hg t ht r ((hsub S f' (threshold N j')).2 r hr)) fun r hr => hc r ((hsub S f' (threshold N j')).2 r hr)
      refine (a.add b).congr' ?_
      filter_upwards [eventually_ge_atTop 1] with g hg
      obtain ⟨e1, e2⟩ := parts_rows (mu := mu) (sd := sd) (hgne g hg) hf' (threshold N j') S
      rw [splitCost, e1, e2]
      ring
    have hfi := hfree hp (List.mem_of_getElem? hb.cand.hp_at) f hb.cand.feature
    have hless : ∀ᶠ g in atTop, ∀ f' ∈ Finset.range space.length, ∀ j' ∈ Finset.range (N + 1), f' ∉ idx → cubeCost k v N S f j < cubeCost k v N S f' j' →
        splitCost (G g).length N (S.map (curveAt idx (G g) mu sd)) f j < splitCost (G g).length N (S.map (curveAt idx (G g) mu sd)) f' j' := by
      rw [eventually_all_finset]
      intro f' _
      rw [eventually_all_finset]
      intro j' _
      by_cases hf' : f' ∈ idx
      · exact Eventually.of_forall fun n h => absurd hf' h
      by_cases h3 : cubeCost k v N S f j < cubeCost k v N S f' j'
      swap
      · exact Eventually.of_forall fun n _ h => absurd h h3
      filter_upwards [(hcost f j hfi).eventually_lt (hcost f' j' hf') h3, eventually_ge_atTop 1] with g h4 h5 _ _
      exact (div_lt_div_iff_of_pos_right (by exact_mod_cast List.length_pos_iff.2 (hgne g h5))).1 h4
    filter_upwards [el, er, hless, eventually_ge_atTop 1] with g el er hless hg m L hdep hcond hcur hGr
    obtain ⟨p1, p2⟩ := parts_rows (mu := mu) (sd := sd) (hgne g hg) hfi (threshold N j) S
    have hbest : IsBestCandidate space possible N minPoints (G g).length (curves m) i j hp f := by
      rw [hcur]
      refine ⟨(hcand g hg _ _ _ _ _).2 hb.cand, ?_⟩
      intro i' j' hp' f' hcand'
      have hfi' := hfree hp' (List.mem_of_getElem? hcand'.hp_at) f' hcand'.feature
      rcases hb.best i' j' hp' f' ((hcand g hg _ _ _ _ _).1 hcand') with h | ⟨h, hord⟩
      · have hflt : f' < space.length := by
          obtain ⟨x, hx, -⟩ := hcand'.feature
          exact (List.getElem?_eq_some_iff.1 hx).1
        have := hless f' (Finset.mem_range.2 hflt) j' (Finset.mem_range.2 (by have := hcand'.le; omega)) hfi' h
        exact ⟨this.le, fun e => absurd e this.ne⟩
      · have : splitCost (G g).length N (S.map (curveAt idx (G g) mu sd)) f' j' = splitCost (G g).length N (S.map (curveAt idx (G g) mu sd)) f j := by
          apply same_sides
          intro c hcm
          obtain ⟨r, hr, rfl⟩ := List.mem_map.1 hcm
          rw [featureOf_curveAt (hgne g hg) hfi', featureOf_curveAt (hgne g hg) hfi]
          exact h r hr
        exact ⟨this.ge, fun _ => hord⟩
    have hlen : 2 ≤ (curves m).length := by
      have s1 := hb.cand.left_size
      have s2 := hb.cand.right_size
      rw [← near_parts_length f (threshold N j) (curves m), hcur, p1, p2, List.length_map, List.length_map]
      omega
    cases hGr with
    | leaf _ hstop =>
      exfalso
      rcases hstop with h | h | h
      · omega
      · omega
      · exact h _ _ _ _ hbest.1
    | @branch _ l r Ll' Lr' i' j' hp' f' _ _ _ hbest' hsp hGl hGr =>
      obtain ⟨rfl, rfl, rfl, rfl⟩ := best_unique hwf hbest hbest'
      refine List.rel_append (er r Lr' ?_ ?_ ?_ hGr) (el l Ll' ?_ ?_ ?_ hGl)
      · rw [hsp.right_depth, hdep]
      · rw [hsp.right_conds, hcond]
      · rw [hsp.right_curves, hcur]; exact p2
      · rw [hsp.left_depth, hdep]
      · rw [hsp.left_conds, hcond]
      · rw [hsp.left_curves, hcur]; exact p1


/-- means, mean variances and standard deviations of the curves of some samples -/
theorem rows_means {grid : List (List ℝ)} {selected : List (Hp ℝ)} {S : List (List ℝ)} (hrow : ∀ t ∈ grid, ∀ r ∈ S, assignRow idx t r = atPoint space selected t r) {i : Nat}
    (hi : i < grid.length) :
    meanY i (S.map (curveAt idx grid mu sd)) = averageOver S (fun r => mu (atPoint space selected (grid.getD i []) r)) ∧
    meanVar i (S.map (curveAt idx grid mu sd)) = averageOver S (fun r => sd (atPoint space selected (grid.getD i []) r) ^ 2) ∧
    (S.map (curveAt idx grid mu sd)).map (fun c => Real.sqrt (c.2.2.getD i 0)) = S.map fun r => |sd (atPoint space selected (grid.getD i []) r)| := by
  have hr := hrow _ (getD_mem hi (z := []))
  refine ⟨?_, ?_, ?_⟩
  · rw [meanY, List.length_map, List.map_map, averageOver]
    congr 2
    refine List.map_congr_left fun r h => ?_
    rw [← hr r h]
    simp [curveAt, List.getElem?_eq_getElem hi]
  · rw [meanVar, List.length_map, List.map_map, averageOver]
    congr 2
    refine List.map_congr_left fun r h => ?_
    rw [← hr r h]
    simp [curveAt, List.getElem?_eq_getElem hi]
  · rw [List.map_map]
    refine List.map_congr_left fun r h => ?_
    rw [← hr r h, ← Real.sqrt_sq_eq_abs]
    simp [curveAt, List.getElem?_eq_getElem hi]

theorem rows_confidence {grid : List (List ℝ)} {selected : List (Hp ℝ)} {S : List (List ℝ)} (hrow : ∀ t ∈ grid, ∀ r ∈ S, assignRow idx t r = atPoint space selected t r)
    (hS : S ≠ []) {F : Nat} {m : Node ℝ} (hm : RegionShape grid.length F m) (hc : curves m = S.map (curveAt idx grid mu sd)) :
    meanConfidence m = .ok ((grid.map fun t => averageOver S fun r => |sd (atPoint space selected t r)|).sum / grid.length) := by
  rw [C82_mean_confidence hm (by rw [hc]; simpa using hS), hc, sum_swap_curves, ← sum_range_getD (f := fun t => averageOver S fun r => |sd (atPoint space selected t r)|)]
  simp only [averageOver]
  rw [← Finset.sum_div, div_div, List.length_map]
  congr 2
  refine Finset.sum_congr rfl fun i hi => ?_
  rw [(rows_means (mu := mu) hrow (Finset.mem_range.1 hi)).2.2]

/-- the leaves hold, for fine enough grids, the curves of the samples of the tree of the continuum -/
theorem cube_leaves (hwf : space.WF) {predict : Predict ℝ} (hp : RowWise space.length predict mu sd) {sel : Selection ℝ} {selected : List (Hp ℝ)}
    (hsel : convertHyperparameters sel space = .ok selected) (hmem : ∀ hp ∈ selected, hp ∈ space) (hd : (selected.map Hp.name).Nodup) (hne : selected ≠ [])
    {samples : List (List ℝ)} (hrows : ∀ r ∈ samples, r.length = space.length) (hs : samples ≠ []) {notSplittable : Option (Selection ℝ)} {ns : List (Hp ℝ)}
    (hns : notSplittableHps notSplittable space = .ok ns) (hmp : 1 ≤ minPoints) {depth : Int} (hdep : 0 < depth)
    (hc : ∀ r ∈ samples, ContinuousOn (fun t : Fin selected.length → ℝ => sd (atPoint space selected (List.ofFn t) r)) (Set.Icc 0 1))
    {R : List (List (List ℝ) × List (Cond ℝ))}
    (hT : CubeTree selected.length (fun t r => sd (atPoint space selected t r) ^ 2) space (possibleSplits space selected ns) N minPoints depth samples [] 0 R) :
    ∃ (G : ℕ → List (List ℝ)) (idx : List Nat), (∀ g, 1 ≤ g → gridPoints selected.length g = .ok (G g)) ∧
      (∀ g ≥ 1, ∀ t ∈ G g, ∀ r ∈ samples, assignRow idx t r = atPoint space selected t r) ∧ (∀ p ∈ R, p.1 ≠ [] ∧ ∀ r ∈ p.1, r ∈ samples) ∧
      ∀ᶠ g in atTop, ∃ p leaves, dtInit space predict sel samples g N minPoints notSplittable = .ok p ∧ p.cfg.selected = selected ∧
        RootOf space mu sd samples g N minPoints p idx (G g) ∧ (dtPartition p depth).2 = .ok leaves ∧
        List.Forall₂ (fun q m => RegionShape (G g).length space.length m ∧ m.conds = q.2 ∧ curves m = q.1.map (curveAt idx (G g) mu sd)) R leaves := by
  have hk := List.length_pos_iff.2 hne
  have hgrid := fun g => C40_grid (K := ℝ) hk g
  choose G hG hGl hGf using hgrid
  have hvc : ValidCfg (⟨space, selected, [], 0, 1, 1 ^ selected.length, false, predict⟩ : IceCfg ℝ) := ⟨hwf, hmem, hd, hne, by simp, rfl, rfl⟩
  obtain ⟨idx, hidx, -, -⟩ := hvc.idx
  have hrow : ∀ g ≥ 1, ∀ t ∈ G g, ∀ r ∈ samples, assignRow idx t r = atPoint space selected t r := fun g _ t ht r hr =>
    assignRow_atPoint hvc hidx (hrows r hr) (((hGf g).2 t).1 ht).1
  have hfirst : ∀ g ≥ 1, ∃ p, dtInit space predict sel samples g N minPoints notSplittable = .ok p ∧ p.cfg.selected = selected ∧
      p.possible = possibleSplits space selected ns ∧ RootOf space mu sd samples g N minPoints p idx (G g) := by
    intro g hg
    obtain ⟨p, q1, q2, q3, q4, q5, q6, q7, q8⟩ := dtInit_rows hwf hp hsel hmem hd hne hrows hs hg N minPoints hns hidx (hG g)
    obtain ⟨idx', grid', hroot⟩ := rootOf hwf hp hrows hs hg q1 (by rw [q3]; exact hmem) (by rw [q3]; exact hd) (by rw [q3]; exact hne)
    have e1 := hroot.idx_eq
    have e2 := hroot.grid_eq
    rw [q3, hidx] at e1
    rw [q3, hG] at e2
    obtain rfl := Except.ok.inj e1
    obtain rfl := Except.ok.inj e2
    exact ⟨p, q1, q3, q4, hroot⟩
  have hfree : ∀ hp ∈ possibleSplits space selected ns, ∀ f, IsFeature space hp f → f ∉ idx := by
    obtain ⟨p, -, -, h3, h4⟩ := hfirst 1 le_rfl
    rw [← h3]
    exact h4.free
  obtain ⟨c1, c2, c3⟩ := cube_core (mu := mu) (sd := sd) hwf (fun g _ => hG g) hk hfree hmp hT (fun g hg t ht r hr => by rw [hrow g hg t ht r hr]) fun r hr => (hc r hr).pow 2
  refine ⟨G, idx, fun g _ => hG g, hrow, fun p hp => ⟨c2 hs p hp, c1 p hp⟩, ?_⟩
  filter_upwards [c3, eventually_ge_atTop 1] with g c3 hg
  obtain ⟨p, q1, q3, q4, hroot⟩ := hfirst g hg
  obtain ⟨L, g1, -, g3, -⟩ := partition_eq hroot.valid hdep
  rw [hroot.space_eq, hroot.numSplits_eq, hroot.minPoints_eq, q4, ← hroot.grid_len] at g3
  refine ⟨p, L, q1, q3, hroot, by rw [g1], ?_⟩
  exact forall₂_mem (c3 p.root L hroot.valid.depth hroot.valid.conds hroot.curves_eq g3) fun q m hq hm hc => ⟨g3.shapes m hm, hc⟩

/-- **C193** With finer and finer grids the tree settles. Let the standard deviations of the surrogate depend continuously on the selected hyperparameters, and let `R` be the
tree of the continuum - in every region the split that minimises the loss averaged over all values of the selected hyperparameters, provided that there is only one
such split, up to splits that divide the samples in the same way and come later. Then from some `num_grid_points_per_axis` on the leaves have exactly the conditions of
the leaves of `R`, in this order, and hold exactly the curves of their samples; their losses per grid point and their `mean_confidence` are as near as one likes to the
averages over the cube. -/
theorem C193_tree (hwf : space.WF) {predict : Predict ℝ} (hp : RowWise space.length predict mu sd) {sel : Selection ℝ} {selected : List (Hp ℝ)}
    (hsel : convertHyperparameters sel space = .ok selected) (hmem : ∀ hp ∈ selected, hp ∈ space) (hd : (selected.map Hp.name).Nodup) (hne : selected ≠ [])
    {samples : List (List ℝ)} (hrows : ∀ r ∈ samples, r.length = space.length) (hs : samples ≠ []) {notSplittable : Option (Selection ℝ)} {ns : List (Hp ℝ)}
    (hns : notSplittableHps notSplittable space = .ok ns) (hmp : 1 ≤ minPoints) {depth : Int} (hdep : 0 < depth)
    (hc : ∀ r ∈ samples, ContinuousOn (fun t : Fin selected.length → ℝ => sd (atPoint space selected (List.ofFn t) r)) (Set.Icc 0 1))
    {R : List (List (List ℝ) × List (Cond ℝ))}
    (hT : CubeTree selected.length (fun t r => sd (atPoint space selected t r) ^ 2) space (possibleSplits space selected ns) N minPoints depth samples [] 0 R) :
    ∀ ε > 0, ∃ g₀, ∀ g ≥ g₀, ∃ p leaves, dtInit space predict sel samples g N minPoints notSplittable = .ok p ∧ (dtPartition p depth).2 = .ok leaves ∧
      List.Forall₂ (fun q m => m.conds = q.2 ∧ List.Forall₂ (IsCurveOf space selected (g ^ selected.length)) q.1 m.x ∧
        |regionLoss m.v / g ^ selected.length - cubeLoss selected.length (fun t r => sd (atPoint space selected t r) ^ 2) q.1| ≤ ε ∧
        ∃ mc, meanConfidence m = .ok mc ∧ |mc - ∫ t, averageOver q.1 (fun r => |sd (atPoint space selected (List.ofFn t) r)|) ∂(unitCube selected.length)| ≤ ε)
        R leaves := by
  obtain ⟨G, idx, hG, hrow, hR, hcore⟩ := cube_leaves hwf hp hsel hmem hd hne hrows hs hns hmp hdep hc hT
  have hk := List.length_pos_iff.2 hne
  intro ε hε
  have hlim : ∀ᶠ g : ℕ in atTop, ∀ a : Fin R.length,
      |curveLoss (G g).length (R[a].1.map (curveAt idx (G g) mu sd)) / (G g).length - cubeLoss selected.length (fun t r => sd (atPoint space selected t r) ^ 2) R[a].1| < ε ∧
      |((G g).map fun t => averageOver R[a].1 fun r => |sd (atPoint space selected t r)|).sum / (G g).length -
        ∫ t, averageOver R[a].1 (fun r => |sd (atPoint space selected (List.ofFn t) r)|) ∂(unitCube selected.length)| < ε := by
    rw [eventually_all]
    intro a
    have hin := (hR _ (List.getElem_mem a.2)).2
    refine (Metric.tendsto_nhds.1 (cube_loss (mu := mu) (v := fun t r => sd (atPoint space selected t r) ^ 2) hG hk (fun g hg t ht r hr => by rw [hrow g hg t ht r (hin r hr)])
      fun r hr => (hc r (hin r hr)).pow 2) ε hε).and (Metric.tendsto_nhds.1 (grid_average hG hk ?_) ε hε)
    unfold averageOver
    exact (continuous_sum _ fun r hr => (hc r (hin r hr)).abs).div_const _
  obtain ⟨g₀, hg₀⟩ := eventually_atTop.1 (hcore.and (hlim.and (eventually_ge_atTop 1)))
  refine ⟨g₀, fun g hg => ?_⟩
  obtain ⟨⟨p, L, q1, q3, hroot, q5, hleaves⟩, hlim, hg1⟩ := hg₀ g hg
  refine ⟨p, L, q1, q5, ?_⟩
  refine forall₂_mem hleaves fun q m hq _ hcm => ?_
  obtain ⟨hshape, hcond, hcur⟩ := hcm
  obtain ⟨a, ha, rfl⟩ := List.mem_iff_getElem.1 hq
  obtain ⟨b1, b2⟩ := hlim ⟨a, ha⟩
  have hlen : ((G g).length : ℝ) = (g : ℝ) ^ selected.length := by
    have := hroot.grid_len
    rw [q3] at this
    rw [this]
    push_cast
    rfl
  refine ⟨hcond, ?_, ?_, _, rows_confidence (mu := mu) (selected := selected) (fun t ht r hr => hrow g hg1 t ht r ((hR _ hq).2 r hr)) (hR _ hq).1 hshape hcur, b2.le⟩
  · have hshape' := hshape
    rw [hroot.grid_len] at hshape'
    have := hroot.rows hshape' hcur
    rw [q3] at this
    exact this
  · rw [regionLoss_curves hshape, hcur, ← hlen]
    exact b1.le


theorem grid_within {g : Nat} {grid : List (List ℝ)} (h : IsFullGrid k g grid) {t : List ℝ} (ht : t ∈ grid) : t.length = k ∧ ∀ x ∈ t, x ∈ Set.Icc (0 : ℝ) 1 := by
  obtain ⟨h1, h2⟩ := (h.2 t).1 ht
  refine ⟨h1, fun x hx => ?_⟩
  obtain ⟨b, hb, rfl⟩ := h2 x hx
  split
  · simp
  · have : (1 : ℝ) < g := by
      have : 1 < g := by omega
      exact_mod_cast this
    have hb' : (b : ℝ) + 1 ≤ g := by exact_mod_cast hb
    exact ⟨by apply div_nonneg <;> [positivity; linarith], by rw [div_le_one (by linarith)]; linarith⟩

theorem truth_of_rows {g : Nat} {grid : List (List ℝ)} {selected : List (Hp ℝ)} (hmem : ∀ hp ∈ selected, hp ∈ space) (hd : (selected.map Hp.name).Nodup)
    (hfull : IsFullGrid selected.length g grid) {inv : Hp ℝ → Val ℝ → ℝ} {fn : TrueFn} {truth : ℝ → ℝ} (ht : CubeTruth inv space selected fn truth) {S : List (List ℝ)}
    (hw : ∀ r ∈ S, r.length = space.length) (hrow : ∀ t ∈ grid, ∀ r ∈ S, assignRow idx t r = atPoint space selected t r) {m : Node ℝ}
    (hm : RegionShape grid.length space.length m) (hne : S ≠ []) (hc : curves m = S.map (curveAt idx grid mu sd)) :
    IsTruth inv grid.length space selected m fn fun i => truth ((grid.getD i []).getD 0 0) := by
  obtain ⟨hp, rest, l, u, log, pd, rfl, hdec, hpd, htr⟩ := ht.out
  obtain ⟨f, hf⟩ := List.mem_iff_getElem?.1 (hmem hp (by simp))
  refine ⟨hp, rest, l, u, log, f, pd, rfl, hdec, ⟨hp, hf, rfl⟩, hpd, fun i hi => ?_⟩
  obtain ⟨r, rs, rfl⟩ := List.exists_cons_of_ne_nil hne
  have hx : m.x[0]? = some (grid.map fun t => assignRow idx t r) := by
    rw [← hm.map_x, hc]
    rfl
  have hmemg := List.getElem_mem hi
  obtain ⟨hlen, hval⟩ := grid_within hfull hmemg
  obtain ⟨t, ts, hts⟩ : ∃ t ts, grid[i] = t :: ts := by
    cases hgi : grid[i] with
    | nil => rw [hgi] at hlen; simp at hlen
    | cons t ts => exact ⟨t, ts, rfl⟩
  have ht01 := hval t (by rw [hts]; simp)
  have hget : (grid.getD i []).getD 0 0 = t := by
    rw [List.getD_eq_getElem?_getD (l := grid), List.getElem?_eq_getElem hi, Option.getD_some, hts]
    rfl
  refine ⟨t, ?_, ht01.1, ht01.2, ?_⟩
  · rw [at3, hx, Option.bind_some, List.getElem?_map, List.getElem?_eq_getElem hi, Option.map_some, Option.bind_some, hrow _ hmemg r (by simp),
      atPoint_selected hd (hw r (by simp)) hlen (j := 0) rfl ⟨hp, hf, rfl⟩, hts]
    rfl
  · rw [hget]
    exact htr t ht01

/-- **C193** And so do `negative_log_likelihood` and `delta_nll`: if means and standard deviations of the surrogate and the true partial dependence are continuous and the
mean variances are positive, they are from some `num_grid_points_per_axis` on within `ε` of the Gaussian log loss averaged over the cube, and of its relative
difference to the one of all samples (provided the latter is not 0). -/
theorem C193_likelihood (hwf : space.WF) {predict : Predict ℝ} (hp : RowWise space.length predict mu sd) {sel : Selection ℝ} {selected : List (Hp ℝ)}
    (hsel : convertHyperparameters sel space = .ok selected) (hmem : ∀ hp ∈ selected, hp ∈ space) (hd : (selected.map Hp.name).Nodup) (hne : selected ≠ [])
    {samples : List (List ℝ)} (hrows : ∀ r ∈ samples, r.length = space.length) (hs : samples ≠ []) {notSplittable : Option (Selection ℝ)} {ns : List (Hp ℝ)}
    (hns : notSplittableHps notSplittable space = .ok ns) (hmp : 1 ≤ minPoints) {depth : Int} (hdep : 0 < depth)
    (hc : ∀ r ∈ samples, ContinuousOn (fun t : Fin selected.length → ℝ => sd (atPoint space selected (List.ofFn t) r)) (Set.Icc 0 1))
    (hcm : ∀ r ∈ samples, ContinuousOn (fun t : Fin selected.length → ℝ => mu (atPoint space selected (List.ofFn t) r)) (Set.Icc 0 1))
    {R : List (List (List ℝ) × List (Cond ℝ))}
    (hT : CubeTree selected.length (fun t r => sd (atPoint space selected t r) ^ 2) space (possibleSplits space selected ns) N minPoints depth samples [] 0 R)
    {inv : Hp ℝ → Val ℝ → ℝ} {fn : TrueFn} {truth : ℝ → ℝ} (ht : CubeTruth inv space selected fn truth) (hct : ContinuousOn truth (Set.Icc 0 1))
    (hpos : ∀ S, S = samples ∨ (∃ q ∈ R, S = q.1) → ∀ t ∈ Set.Icc (0 : Fin selected.length → ℝ) 1, 0 < averageOver S fun r => sd (atPoint space selected (List.ofFn t) r) ^ 2) :
    ∀ ε > 0, ∃ g₀, ∀ g ≥ g₀, ∃ p leaves, dtInit space predict sel samples g N minPoints notSplittable = .ok p ∧ (dtPartition p depth).2 = .ok leaves ∧
      List.Forall₂ (fun q m => m.conds = q.2 ∧ ∃ a b, negativeLogLikelihood inv space selected m fn = .ok a ∧ negativeLogLikelihood inv space selected p.root fn = .ok b ∧
        |a - cubeNll selected.length (fun t r => mu (atPoint space selected t r)) (fun t r => sd (atPoint space selected t r) ^ 2) truth q.1| ≤ ε ∧
        |b - cubeNll selected.length (fun t r => mu (atPoint space selected t r)) (fun t r => sd (atPoint space selected t r) ^ 2) truth samples| ≤ ε ∧
        (cubeNll selected.length (fun t r => mu (atPoint space selected t r)) (fun t r => sd (atPoint space selected t r) ^ 2) truth samples ≠ 0 →
          ∃ d, deltaNll inv space selected m p.root fn = .ok d ∧
            |d - ((cubeNll selected.length (fun t r => mu (atPoint space selected t r)) (fun t r => sd (atPoint space selected t r) ^ 2) truth samples -
                cubeNll selected.length (fun t r => mu (atPoint space selected t r)) (fun t r => sd (atPoint space selected t r) ^ 2) truth q.1) /
              |cubeNll selected.length (fun t r => mu (atPoint space selected t r)) (fun t r => sd (atPoint space selected t r) ^ 2) truth samples|)| ≤ ε)) R leaves := by
  obtain ⟨G, idx, hG, hrow, hR, hcore⟩ := cube_leaves hwf hp hsel hmem hd hne hrows hs hns hmp hdep hc hT
  have hk := List.length_pos_iff.2 hne
  have hfull : ∀ g ≥ 1, IsFullGrid selected.length g (G g) := by
    intro g hg
    obtain ⟨grid, h1, -, h3⟩ := C40_grid (K := ℝ) hk g
    rw [hG g hg] at h1
    obtain rfl := Except.ok.inj h1
    exact h3
  obtain ⟨lim, hlimdef⟩ : ∃ lim : List (List ℝ) → ℝ, lim = fun S =>
      cubeNll selected.length (fun t r => mu (atPoint space selected t r)) (fun t r => sd (atPoint space selected t r) ^ 2) truth S := ⟨_, rfl⟩
  have hone : ∀ S : List (List ℝ), S ≠ [] → (∀ r ∈ S, r ∈ samples) →
      (∀ t ∈ Set.Icc (0 : Fin selected.length → ℝ) 1, 0 < averageOver S fun r => sd (atPoint space selected (List.ofFn t) r) ^ 2) →
      ∃ a : ℕ → ℝ, Tendsto a atTop (𝓝 (lim S)) ∧ ∀ g ≥ 1, ∀ m : Node ℝ, RegionShape (G g).length space.length m →
        curves m = S.map (curveAt idx (G g) mu sd) → negativeLogLikelihood inv space selected m fn = .ok (a g) := by
    intro S hS hin hV
    obtain ⟨H, hH⟩ : ∃ H : List ℝ → ℝ, H = fun t => (Real.log (2 * Real.pi * averageOver S fun r => sd (atPoint space selected t r) ^ 2) +
      (truth (t.getD 0 0) - averageOver S fun r => mu (atPoint space selected t r)) ^ 2 / averageOver S fun r => sd (atPoint space selected t r) ^ 2) / 2 := ⟨_, rfl⟩
    refine ⟨fun g => ((G g).map H).sum / (G g).length, ?_, fun g hg m hm hcur => ?_⟩
    · rw [hlimdef]
      have hcont : ContinuousOn (fun t : Fin selected.length → ℝ => H (List.ofFn t)) (Set.Icc 0 1) := by
        have c1 : ContinuousOn (fun t : Fin selected.length → ℝ => averageOver S fun r => sd (atPoint space selected (List.ofFn t) r) ^ 2) (Set.Icc 0 1) := by
          unfold averageOver
          exact (continuous_sum S fun r hr => (hc r (hin r hr)).pow 2).div_const _
        have c2 : ContinuousOn (fun t : Fin selected.length → ℝ => averageOver S fun r => mu (atPoint space selected (List.ofFn t) r)) (Set.Icc 0 1) := by
          unfold averageOver
          exact (continuous_sum S fun r hr => hcm r (hin r hr)).div_const _
        have c3 : ContinuousOn (fun t : Fin selected.length → ℝ => truth ((List.ofFn t).getD 0 0)) (Set.Icc 0 1) := by
          have e : ∀ t : Fin selected.length → ℝ, (List.ofFn t).getD 0 0 = t ⟨0, hk⟩ := by
            intro t
            rw [List.getD_eq_getElem?_getD, List.getElem?_eq_getElem (by simpa using hk)]
            simp
          simp only [e]
          exact hct.comp (continuous_apply _).continuousOn fun t ht => ⟨ht.1 _, ht.2 _⟩
        rw [hH]
        refine ((ContinuousOn.log (continuousOn_const.mul c1) fun t ht => ?_).add (((c3.sub c2).pow 2).div c1 fun t ht => (hV t ht).ne')).div_const 2
        have := Real.pi_pos
        exact (mul_pos (by positivity) (hV t ht)).ne'
      have := grid_average hG hk hcont
      rw [hH] at this ⊢
      exact this
    · have hr : ∀ t ∈ G g, ∀ r ∈ S, assignRow idx t r = atPoint space selected t r := fun t ht r hr => hrow g hg t ht r (hin r hr)
      have hvpos : ∀ i < (G g).length, 0 < meanVar i (curves m) := by
        intro i hi
        rw [hcur, (rows_means (mu := mu) hr hi).2.1]
        obtain ⟨hl, hv⟩ := grid_within (hfull g hg) (getD_mem hi (z := []))
        obtain ⟨t, ht⟩ : ∃ t, t = (G g).getD i [] := ⟨_, rfl⟩
        rw [← ht] at hl hv ⊢
        obtain ⟨w, rfl⟩ : ∃ w : Fin selected.length → ℝ, t = List.ofFn w := by
          refine ⟨fun a => t[a.1]'(by rw [hl]; exact a.2), List.ext_getElem (by simp [hl]) fun n h1 h2 => by simp⟩
        have hw := fun a => hv (w a) (List.mem_ofFn.2 ⟨a, rfl⟩)
        exact hV w ⟨fun a => (hw a).1, fun a => (hw a).2⟩
      rw [C174_formula hm (by rw [hcur]; simpa using hS) hvpos (truth_of_rows hmem hd (hfull g hg) ht (fun r hr => hrows r (hin r hr)) hr hm hS hcur), hcur]
      dsimp only
      rw [← sum_range_getD (f := H)]
      congr 2
      refine Finset.sum_congr rfl fun i hi => ?_
      obtain ⟨e1, e2, -⟩ := rows_means (mu := mu) (sd := sd) hr (Finset.mem_range.1 hi)
      rw [e1, e2, hH]
  have hall := fun a : Fin R.length => hone R[a].1 (hR _ (List.getElem_mem a.2)).1 (hR _ (List.getElem_mem a.2)).2 (hpos _ (.inr ⟨_, List.getElem_mem a.2, rfl⟩))
  obtain ⟨b, hb, hbe⟩ := hone samples hs (fun _ h => h) (hpos _ (.inl rfl))
  choose a ha using hall
  intro ε hε
  have hnear : ∀ᶠ g : ℕ in atTop, ∀ k : Fin R.length, |a k g - lim R[k].1| < ε ∧ |b g - lim samples| < ε ∧
      (lim samples ≠ 0 → b g ≠ 0 ∧ |(b g - a k g) / |b g| - ((lim samples - lim R[k].1) / |lim samples|)| < ε) := by
    rw [eventually_all]
    intro k
    refine (Metric.tendsto_nhds.1 (ha k).1 ε hε).and ((Metric.tendsto_nhds.1 hb ε hε).and ?_)
    by_cases h0 : lim samples = 0
    · exact Eventually.of_forall fun n h => absurd h0 h
    · have hd := (hb.sub (ha k).1).div hb.abs (abs_ne_zero.2 h0)
      filter_upwards [hb.eventually_ne h0, Metric.tendsto_nhds.1 hd ε hε] with n h1 h2 _
      exact ⟨h1, h2⟩
  obtain ⟨g₀, hg₀⟩ := eventually_atTop.1 (hcore.and (hnear.and (eventually_ge_atTop 1)))
  refine ⟨g₀, fun g hg => ?_⟩
  obtain ⟨⟨p, L, q1, q3, hr, q5, hleaves⟩, hnear, hg1⟩ := hg₀ g hg
  refine ⟨p, L, q1, q5, ?_⟩
  have hrootNll : negativeLogLikelihood inv space selected p.root fn = .ok (b g) := by
    refine hbe g hg1 p.root ?_ hr.curves_eq
    rw [hr.grid_len, ← hr.space_eq]
    exact hr.valid.shape
  refine forall₂_mem hleaves fun q m hq _ hcc => ?_
  obtain ⟨hshape, hcond, hcur⟩ := hcc
  obtain ⟨k, hk, rfl⟩ := List.mem_iff_getElem.1 hq
  obtain ⟨b2, b3, b4⟩ := hnear ⟨k, hk⟩
  have hm := (ha ⟨k, hk⟩).2 g hg1 m hshape hcur
  refine ⟨hcond, a ⟨k, hk⟩ g, b g, hm, hrootNll, ?_, ?_, fun h0 => ?_⟩
  · rw [hlimdef] at b2
    exact b2.le
  · rw [hlimdef] at b3
    exact b3.le
  · rw [hlimdef] at b4
    obtain ⟨b5, b6⟩ := b4 h0
    refine ⟨_, ?_, b6.le⟩
    rw [deltaNll, hm, hrootNll, Py.ok_bind, Py.ok_bind, calculateLogDelta, if_neg b5]

end tree

/-! ### example: a surrogate whose standard deviation grows with the selected hyperparameter and is twice as large in the upper half of the other one -/

section wedge

noncomputable def wedgeSd (r : List ℝ) : ℝ := (1 + r.getD 0 0) * if r.getD 1 0 ≤ 1 / 2 then 1 else 2

noncomputable def wedgeRows : List (List ℝ) := [[0, 1 / 8], [0, 3 / 8], [0, 5 / 8], [0, 7 / 8]]

noncomputable def wedgeV (t r : List ℝ) : ℝ := wedgeSd (atPoint stSpace [⟨"x1", .float (-5) 5 false⟩] t r) ^ 2

theorem wedge_value (t : List ℝ) (a b : ℝ) : wedgeSd (atPoint stSpace [⟨"x1", .float (-5) 5 false⟩] t [a, b]) = (1 + t.getD 0 0) * if b ≤ 1 / 2 then 1 else 2 := by
  simp [wedgeSd, atPoint, stSpace]

theorem cube_coordinate (f : ℝ → ℝ) (hf : Continuous f) : ∫ t, f ((List.ofFn t).getD 0 0) ∂(unitCube 1) = ∫ x in (0 : ℝ)..1, f x := by
  have h : ∀ t : Fin 1 → ℝ, (List.ofFn t).getD 0 0 = t 0 := fun t => rfl
  simp only [h]
  have h1 : (unitCube 1).map (Function.eval (0 : Fin 1)) = volume.restrict (Set.Icc (0 : ℝ) 1) := (measurePreserving_eval _ 0).map_eq
  have := integral_map (μ := unitCube 1) (φ := fun t : Fin 1 → ℝ => t 0) (f := f) (measurable_pi_apply 0).aemeasurable hf.aestronglyMeasurable
  rw [← this]
  change ∫ y, f y ∂((unitCube 1).map (Function.eval (0 : Fin 1))) = _
  rw [h1, integral_Icc_eq_integral_Ioc, ← intervalIntegral.integral_of_le zero_le_one]

theorem wedge_power : ∫ t, (1 + (List.ofFn t).getD 0 0) ^ 4 ∂(unitCube 1) = 31 / 5 := by
  rw [cube_coordinate (fun x => (1 + x) ^ 4) (by fun_prop)]
  rw [intervalIntegral.integral_comp_add_left (fun x => x ^ 4) 1, integral_pow]
  norm_num

theorem wedge_mean : ∫ t, (1 + (List.ofFn t).getD 0 0) ∂(unitCube 1) = 3 / 2 := by
  rw [cube_coordinate (fun x => 1 + x) (by fun_prop)]
  rw [intervalIntegral.integral_comp_add_left (fun x => x) 1, integral_id]
  norm_num

theorem wedge_loss {S : List (List ℝ)} (c : ℝ)
    (h : ∀ t : Fin 1 → ℝ, (S.map fun r => (wedgeV (List.ofFn t) r - (S.map fun r => wedgeV (List.ofFn t) r).sum / S.length) ^ 2).sum = c * (1 + (List.ofFn t).getD 0 0) ^ 4) :
    cubeLoss 1 wedgeV S = c * (31 / 5) := by
  rw [cubeLoss, integral_congr_ae (ae_of_all _ h), integral_const_mul, wedge_power]

theorem wedge_below : rowsBelow wedgeRows 1 (threshold 3 1) = [[0, 1 / 8]] ∧ rowsBelow wedgeRows 1 (threshold 3 2) = [[0, 1 / 8], [0, 3 / 8]] ∧
    rowsBelow wedgeRows 1 (threshold 3 3) = [[0, 1 / 8], [0, 3 / 8], [0, 5 / 8]] := by
  refine ⟨?_, ?_, ?_⟩ <;> simp only [rowsBelow, wedgeRows, threshold, List.filter_cons, List.filter_nil, List.getD_cons_succ, List.getD_cons_zero] <;> norm_num

theorem wedge_above : rowsAbove wedgeRows 1 (threshold 3 1) = [[0, 3 / 8], [0, 5 / 8], [0, 7 / 8]] ∧ rowsAbove wedgeRows 1 (threshold 3 2) = [[0, 5 / 8], [0, 7 / 8]] ∧
    rowsAbove wedgeRows 1 (threshold 3 3) = [[0, 7 / 8]] := by
  refine ⟨?_, ?_, ?_⟩ <;> simp only [rowsAbove, wedgeRows, threshold, List.filter_cons, List.filter_nil, List.getD_cons_succ, List.getD_cons_zero] <;> norm_num

theorem wedge_costs : cubeCost 1 wedgeV 3 wedgeRows 1 2 = 0 ∧ cubeCost 1 wedgeV 3 wedgeRows 1 1 = 6 * (31 / 5) ∧ cubeCost 1 wedgeV 3 wedgeRows 1 3 = 6 * (31 / 5) := by
  obtain ⟨b1, b2, b3⟩ := wedge_below
  obtain ⟨a1, a2, a3⟩ := wedge_above
  refine ⟨?_, ?_, ?_⟩
  · rw [cubeCost, b2, a2, wedge_loss 0, wedge_loss 0]
    · norm_num
    all_goals
      intro t
      simp only [List.map_cons, List.map_nil, List.sum_cons, List.sum_nil, List.length_cons, List.length_nil, wedgeV, wedge_value]
      norm_num
  · rw [cubeCost, b1, a1, wedge_loss 0, wedge_loss 6]
    · norm_num
    all_goals
      intro t
      simp only [List.map_cons, List.map_nil, List.sum_cons, List.sum_nil, List.length_cons, List.length_nil, wedgeV, wedge_value]
      norm_num
    ring
  · rw [cubeCost, b3, a3, wedge_loss 6, wedge_loss 0]
    · norm_num
    all_goals
      intro t
      simp only [List.map_cons, List.map_nil, List.sum_cons, List.sum_nil, List.length_cons, List.length_nil, wedgeV, wedge_value]
      norm_num
    ring

theorem wedge_tree : CubeTree 1 wedgeV stSpace (possibleSplits stSpace [⟨"x1", .float (-5) 5 false⟩] []) 3 1 1 wedgeRows [] 0
    [([[0, 5 / 8], [0, 7 / 8]], [⟨⟨"x2", .float (-5) 5 false⟩, .flt (threshold 3 2), some false⟩]),
      ([[0, 1 / 8], [0, 3 / 8]], [⟨⟨"x2", .float (-5) 5 false⟩, .flt (threshold 3 2), some true⟩])] := by
  rw [half_possible]
  obtain ⟨b1, b2, b3⟩ := wedge_below
  obtain ⟨a1, a2, a3⟩ := wedge_above
  obtain ⟨c2, c1, c3⟩ := wedge_costs
  have hb : IsCubeBest 1 wedgeV stSpace [⟨"x2", .float (-5) 5 false⟩] 3 1 wedgeRows 0 2 ⟨"x2", .float (-5) 5 false⟩ 1 := by
    refine ⟨⟨rfl, (half_feature rfl).2 rfl, by norm_num, by norm_num, by rw [b2]; simp, by rw [a2]; simp⟩, ?_⟩
    intro i' j' hp' f' hc
    have hi : i' = 0 ∧ hp' = ⟨"x2", .float (-5) 5 false⟩ := by
      have := hc.hp_at
      cases i' with
      | zero => simpa using this.symm
      | succ n => simp at this
    obtain ⟨rfl, rfl⟩ := hi
    obtain rfl := (half_feature rfl).1 hc.feature
    have h1 := hc.one_le
    have h3 := hc.le
    obtain rfl | rfl | rfl : j' = 1 ∨ j' = 2 ∨ j' = 3 := by omega
    · left; rw [c2, c1]; norm_num
    · exact .inr ⟨fun _ _ => Iff.rfl, .inr ⟨rfl, le_rfl⟩⟩
    · left; rw [c2, c3]; norm_num
  have := CubeTree.branch (maxDepth := 1) (conds := []) (d := 0) (by norm_num) hb (.leaf (.inl (by norm_num))) (.leaf (.inl (by norm_num)))
  rw [b2, a2] at this
  exact this

theorem wedge_continuous : ∀ r ∈ wedgeRows, ContinuousOn (fun t : Fin 1 → ℝ => wedgeSd (atPoint stSpace [⟨"x1", .float (-5) 5 false⟩] (List.ofFn t) r)) (Set.Icc 0 1) := by
  intro r hr
  have : ∃ b, r = [0, b] := by
    simp only [wedgeRows, List.mem_cons, List.not_mem_nil, or_false] at hr
    rcases hr with rfl | rfl | rfl | rfl <;> exact ⟨_, rfl⟩
  obtain ⟨b, rfl⟩ := this
  simp only [wedge_value]
  refine Continuous.continuousOn ?_
  have h : ∀ t : Fin 1 → ℝ, (List.ofFn t).getD 0 0 = t 0 := fun t => rfl
  simp only [h]
  fun_prop

/-- with fine grids the samples are divided into halves, with mean confidences near 3 and 3/2 -/
example : ∀ ε > 0, ∃ g₀, ∀ g ≥ g₀, ∃ p upper lower a b,
    dtInit stSpace (fun rows => .ok (rows.map fun _ => 0, rows.map wedgeSd)) (.many [.name "x1"]) wedgeRows g 3 1 none = .ok p ∧
    (dtPartition p 1).2 = .ok [upper, lower] ∧ upper.x.length = 2 ∧ lower.x.length = 2 ∧ meanConfidence upper = .ok a ∧ meanConfidence lower = .ok b ∧
    |a - 3| ≤ ε ∧ |b - 3 / 2| ≤ ε := by
  have h := C193_tree (minPoints := 1) (N := 3) (mu := fun _ => 0) (sd := wedgeSd) (predict := fun rows => .ok (rows.map fun _ => 0, rows.map wedgeSd)) stSpace_wf
    (fun _ _ _ => rfl) (halfSetting (a := 1) (b := 2)).sel_eq (halfSetting (a := 1) (b := 2)).mem (halfSetting (a := 1) (b := 2)).distinct (by simp) (samples := wedgeRows)
    (by simp [wedgeRows, stSpace]) (by simp [wedgeRows]) (notSplittable := none) (ns := []) rfl le_rfl (depth := 1) (by norm_num) wedge_continuous wedge_tree
  intro ε hε
  obtain ⟨g₀, h⟩ := h ε hε
  refine ⟨g₀, fun g hg => ?_⟩
  obtain ⟨p, leaves, h1, h2, h3⟩ := h g hg
  have m1 : ∫ t : Fin 1 → ℝ, averageOver [[0, 5 / 8], [0, 7 / 8]] (fun r => |wedgeSd (atPoint stSpace [⟨"x1", .float (-5) 5 false⟩] (List.ofFn t) r)|) ∂(unitCube 1) = 3 := by
    have : ∀ᵐ t : Fin 1 → ℝ ∂(unitCube 1), averageOver [[0, 5 / 8], [0, 7 / 8]] (fun r => |wedgeSd (atPoint stSpace [⟨"x1", .float (-5) 5 false⟩] (List.ofFn t) r)|) =
        2 * (1 + (List.ofFn t).getD 0 0) := by
      filter_upwards [cube_ae 1] with t ht
      have h0 : 0 ≤ (List.ofFn t).getD 0 0 := ht.1 0
      simp only [averageOver, List.map_cons, List.map_nil, List.sum_cons, List.sum_nil, List.length_cons, List.length_nil, wedge_value]
      norm_num
      rw [abs_of_nonneg (by simpa using add_nonneg zero_le_one h0)]
      ring
    rw [integral_congr_ae this, integral_const_mul, wedge_mean]
    norm_num
  have m2 : ∫ t : Fin 1 → ℝ, averageOver [[0, 1 / 8], [0, 3 / 8]] (fun r => |wedgeSd (atPoint stSpace [⟨"x1", .float (-5) 5 false⟩] (List.ofFn t) r)|) ∂(unitCube 1) = 3 / 2 := by
    have : ∀ᵐ t : Fin 1 → ℝ ∂(unitCube 1), averageOver [[0, 1 / 8], [0, 3 / 8]] (fun r => |wedgeSd (atPoint stSpace [⟨"x1", .float (-5) 5 false⟩] (List.ofFn t) r)|) =
        1 + (List.ofFn t).getD 0 0 := by
      filter_upwards [cube_ae 1] with t ht
      have h0 : 0 ≤ (List.ofFn t).getD 0 0 := ht.1 0
      simp only [averageOver, List.map_cons, List.map_nil, List.sum_cons, List.sum_nil, List.length_cons, List.length_nil, wedge_value]
      norm_num
      exact add_nonneg zero_le_one h0
    rw [integral_congr_ae this, wedge_mean]
  cases h3 with
  | @cons _ u _ _ e1 h4 =>
    cases h4 with
    | @cons _ l _ _ e2 h5 =>
      cases h5
      obtain ⟨-, u1, -, a, a1, a2⟩ := e1
      obtain ⟨-, l1, -, b, b1, b2⟩ := e2
      refine ⟨p, u, l, a, b, h1, h2, ?_, ?_, a1, b1, ?_, ?_⟩
      · rw [← u1.length_eq]; rfl
      · rw [← l1.length_eq]; rfl
      · rw [← m1]; exact a2
      · rw [← m2]; exact b2

theorem wedge_log : ∫ t, Real.log (1 + |(List.ofFn t).getD 0 0|) ∂(unitCube 1) = 2 * Real.log 2 - 1 := by
  rw [cube_coordinate (fun x => Real.log (1 + |x|)) (by
    refine Continuous.log (by fun_prop) fun x => ?_
    have := abs_nonneg x
    positivity)]
  have : ∫ x in (0 : ℝ)..1, Real.log (1 + |x|) = ∫ x in (0 : ℝ)..1, Real.log (1 + x) := by
    refine intervalIntegral.integral_congr fun x hx => ?_
    rw [Set.uIcc_of_le zero_le_one] at hx
    simp only [abs_of_nonneg hx.1]
  rw [this, intervalIntegral.integral_comp_add_left (fun x => Real.log x) 1, integral_log]
  norm_num
  ring

theorem wedge_nll {S : List (List ℝ)} {c : ℝ} (hc : 0 < c) (h : ∀ t : Fin 1 → ℝ, averageOver S (fun r => wedgeV (List.ofFn t) r) = c * (1 + (List.ofFn t).getD 0 0) ^ 2)
    (h0 : averageOver S (fun _ => 0) = 0) :
    cubeNll 1 (fun _ _ => 0) wedgeV (fun _ => 0) S = Real.log (2 * Real.pi * c) / 2 + (2 * Real.log 2 - 1) := by
  unfold cubeNll
  have : ∀ᵐ t : Fin 1 → ℝ ∂(unitCube 1), (Real.log (2 * Real.pi * averageOver S fun r => wedgeV (List.ofFn t) r) +
      ((0 : ℝ) - averageOver S fun _ => 0) ^ 2 / averageOver S fun r => wedgeV (List.ofFn t) r) / 2 =
      Real.log (2 * Real.pi * c) / 2 + Real.log (1 + |(List.ofFn t).getD 0 0|) := by
    filter_upwards [cube_ae 1] with t ht
    have hx : 0 ≤ (List.ofFn t).getD 0 0 := ht.1 0
    rw [h, h0, abs_of_nonneg hx, ← mul_assoc, Real.log_mul (by positivity) (by positivity), Real.log_pow]
    push_cast
    ring
  rw [integral_congr_ae this, integral_add (integrable_const _), wedge_log]
  · have : IsProbabilityMeasure (unitCube 1) := by
      unfold unitCube
      have : IsProbabilityMeasure (volume.restrict (Set.Icc (0 : ℝ) 1)) := ⟨by simp⟩
      infer_instance
    simp
  · refine Integrable.of_bound (C := 1) ?_ ?_
    · refine Measurable.aestronglyMeasurable ?_
      have h : ∀ t : Fin 1 → ℝ, (List.ofFn t).getD 0 0 = t 0 := fun t => rfl
      simp only [h]
      fun_prop
    · filter_upwards [cube_ae 1] with t ht
      have hx : 0 ≤ (List.ofFn t).getD 0 0 := ht.1 0
      have hy : (List.ofFn t).getD 0 0 ≤ 1 := ht.2 0
      rw [abs_of_nonneg hx, Real.norm_of_nonneg (Real.log_nonneg (by linarith))]
      have := Real.log_le_sub_one_of_pos (x := 1 + (List.ofFn t).getD 0 0) (by linarith)
      linarith

theorem wedge_truth (inv : Hp ℝ → Val ℝ → ℝ) : CubeTruth inv stSpace [⟨"x1", .float (-5) 5 false⟩] zeroTruth fun _ => 0 := by
  refine ⟨⟨"x1", .float (-5) 5 false⟩, [], -5, 5, false, _, rfl, ⟨stSpace_wf, ⟨⟨"x1", .float (-5) 5 false⟩, by simp [stSpace], rfl, .inl rfl⟩, by norm_num, by simp⟩, rfl, ?_⟩
  intro t ht
  rw [call_single rfl rfl (by norm_num [interpolate]; linarith [ht.1]) (by norm_num [interpolate]; linarith [ht.2])]

/-- the negative log-likelihoods of the halves are near `log (8 π) / 2 + 2 log 2 - 1` and `log (2 π) / 2 + 2 log 2 - 1` -/
example (inv : Hp ℝ → Val ℝ → ℝ) : ∀ ε > 0, ∃ g₀, ∀ g ≥ g₀, ∃ p upper lower a b,
    dtInit stSpace (fun rows => .ok (rows.map fun _ => 0, rows.map wedgeSd)) (.many [.name "x1"]) wedgeRows g 3 1 none = .ok p ∧
    (dtPartition p 1).2 = .ok [upper, lower] ∧ negativeLogLikelihood inv stSpace [⟨"x1", .float (-5) 5 false⟩] upper zeroTruth = .ok a ∧
    negativeLogLikelihood inv stSpace [⟨"x1", .float (-5) 5 false⟩] lower zeroTruth = .ok b ∧
    |a - (Real.log (2 * Real.pi * 4) / 2 + (2 * Real.log 2 - 1))| ≤ ε ∧ |b - (Real.log (2 * Real.pi * 1) / 2 + (2 * Real.log 2 - 1))| ≤ ε := by
  have v1 : ∀ t : Fin 1 → ℝ, averageOver [[0, 5 / 8], [0, 7 / 8]] (fun r => wedgeV (List.ofFn t) r) = 4 * (1 + (List.ofFn t).getD 0 0) ^ 2 := by
    intro t
    simp only [averageOver, List.map_cons, List.map_nil, List.sum_cons, List.sum_nil, List.length_cons, List.length_nil, wedgeV, wedge_value]
    norm_num
    ring
  have v2 : ∀ t : Fin 1 → ℝ, averageOver [[0, 1 / 8], [0, 3 / 8]] (fun r => wedgeV (List.ofFn t) r) = 1 * (1 + (List.ofFn t).getD 0 0) ^ 2 := by
    intro t
    simp only [averageOver, List.map_cons, List.map_nil, List.sum_cons, List.sum_nil, List.length_cons, List.length_nil, wedgeV, wedge_value]
    norm_num
  have v3 : ∀ t : Fin 1 → ℝ, averageOver wedgeRows (fun r => wedgeV (List.ofFn t) r) = 5 / 2 * (1 + (List.ofFn t).getD 0 0) ^ 2 := by
    intro t
    simp only [wedgeRows, averageOver, List.map_cons, List.map_nil, List.sum_cons, List.sum_nil, List.length_cons, List.length_nil, wedgeV, wedge_value]
    norm_num
    ring
  have h := C193_likelihood (minPoints := 1) (N := 3) (mu := fun _ => 0) (sd := wedgeSd) (predict := fun rows => .ok (rows.map fun _ => 0, rows.map wedgeSd)) stSpace_wf
    (fun _ _ _ => rfl) (halfSetting (a := 1) (b := 2)).sel_eq (halfSetting (a := 1) (b := 2)).mem (halfSetting (a := 1) (b := 2)).distinct (by simp) (samples := wedgeRows)
    (by simp [wedgeRows, stSpace]) (by simp [wedgeRows]) (notSplittable := none) (ns := []) rfl le_rfl (depth := 1) (by norm_num) wedge_continuous
    (fun _ _ => continuousOn_const) wedge_tree (wedge_truth inv) continuousOn_const (by
      intro S hS t ht
      have hx : 0 ≤ (List.ofFn t).getD 0 0 := ht.1 0
      rcases hS with rfl | ⟨q, hq, rfl⟩
      · refine lt_of_lt_of_eq ?_ (v3 t).symm
        positivity
      · simp only [List.mem_cons, List.not_mem_nil, or_false] at hq
        rcases hq with rfl | rfl
        · refine lt_of_lt_of_eq ?_ (v1 t).symm
          positivity
        · refine lt_of_lt_of_eq ?_ (v2 t).symm
          positivity)
  intro ε hε
  obtain ⟨g₀, h⟩ := h ε hε
  refine ⟨g₀, fun g hg => ?_⟩
  obtain ⟨p, leaves, h1, h2, h3⟩ := h g hg
  cases h3 with
  | @cons _ u _ _ e1 h4 =>
    cases h4 with
    | @cons _ l _ _ e2 h5 =>
      cases h5
      obtain ⟨-, a, -, a1, -, a2, -⟩ := e1
      obtain ⟨-, b, -, b1, -, b2, -⟩ := e2
      refine ⟨p, u, l, a, b, h1, h2, a1, b1, ?_, ?_⟩
      · rw [← wedge_nll (by norm_num) v1 (by simp [averageOver])]; exact a2
      · rw [← wedge_nll (by norm_num) v2 (by simp [averageOver])]; exact b2

end wedge
end PyPDP
