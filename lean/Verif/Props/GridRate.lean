/-
C194: how fine a grid suffices for the tree and the quality of its regions.
-/
import Verif.Props.GridLimit
import Verif.Spec.GridRate

namespace PyPDP
open Spec MeasureTheory ProbabilityTheory Filter Topology

section errors

theorem lipschitz_continuous {k : Nat} {f : (Fin k → ℝ) → ℝ} {C : ℝ} (h : ∀ t ∈ Set.Icc (0 : Fin k → ℝ) 1, ∀ t' ∈ Set.Icc (0 : Fin k → ℝ) 1, |f t - f t'| ≤ C * dist t t') :
    ContinuousOn f (Set.Icc 0 1) := by
  refine LipschitzOnWith.continuousOn (K := C.toNNReal) (LipschitzOnWith.of_dist_le_mul fun x hx y hy => ?_)
  rw [Real.dist_eq]
  exact (h x hx y hy).trans (mul_le_mul_of_nonneg_right (Real.le_coe_toNNReal C) dist_nonneg)

/-- averages over the grid and over the cube -/
theorem grid_error {k g : Nat} (hg : 2 ≤ g) (hk : 1 ≤ k) {grid : List (List ℝ)} (hG : gridPoints k g = .ok grid) {F : List ℝ → ℝ} {C : ℝ} (hC : 0 ≤ C)
    (h : ∀ t ∈ Set.Icc (0 : Fin k → ℝ) 1, ∀ t' ∈ Set.Icc (0 : Fin k → ℝ) 1, |F (List.ofFn t) - F (List.ofFn t')| ≤ C * dist t t') :
    |(grid.map F).sum / grid.length - ∫ t, F (List.ofFn t) ∂(unitCube k)| ≤ C / g := by
  obtain ⟨m, rfl⟩ : ∃ m, g = m + 1 := ⟨g - 1, by omega⟩
  have hm : 1 ≤ m := by omega
  obtain ⟨grid', h1, h2, h3⟩ := C40_grid (K := ℝ) hk (m + 1)
  rw [hG] at h1
  obtain rfl := Except.ok.inj h1
  have hcont := lipschitz_continuous (f := fun t : Fin k → ℝ => F (List.ofFn t)) h
  obtain ⟨M, hM⟩ := isCompact_Icc.exists_bound_of_continuousOn hcont
  have hin : ∀ {x : Fin k → ℝ}, x ∈ Set.Icc 0 1 → (fun a => ((axisCell m (x a)).1 : ℝ) / m) ∈ Set.Icc (0 : Fin k → ℝ) 1 := by
    intro x hx
    have h := fun a => (axisCell_near hm (x := x a) ⟨hx.1 a, hx.2 a⟩).1
    exact ⟨fun a => (h a).1, fun a => (h a).2⟩
  rw [fullGrid_sum hm h3, h2]
  push_cast
  have e := axisCell_sum k m fun j => F (List.ofFn fun a => ((j a).1 : ℝ) / m)
  push_cast at e
  rw [← e]
  have hmeas : Measurable fun (x : Fin k → ℝ) a => axisCell m (x a) := measurable_pi_iff.2 fun a => (axisCell_measurable m).comp (measurable_pi_apply a)
  have i1 : Integrable (fun x : Fin k → ℝ => F (List.ofFn fun a => ((axisCell m (x a)).1 : ℝ) / m)) (unitCube k) := by
    refine Integrable.of_bound (C := M) ?_ ?_
    · exact ((measurable_of_finite fun j : Fin k → Fin (m + 1) => F (List.ofFn fun a => ((j a).1 : ℝ) / m)).comp hmeas).aestronglyMeasurable
    · filter_upwards [cube_ae k] with x hx
      exact hM _ (hin hx)
  have i2 : Integrable (fun x : Fin k → ℝ => F (List.ofFn x)) (unitCube k) := by
    have hr : (unitCube k).restrict (Set.Icc 0 1) = unitCube k := Measure.restrict_eq_self_of_ae_mem (cube_ae k)
    refine Integrable.of_bound (C := M) ?_ ?_
    · rw [← hr]
      exact hcont.aestronglyMeasurable measurableSet_Icc
    · filter_upwards [cube_ae k] with x hx
      exact hM _ hx
  rw [← integral_sub i1 i2]
  have hb : ∀ᵐ x ∂(unitCube k), ‖F (List.ofFn fun a => ((axisCell m (x a)).1 : ℝ) / m) - F (List.ofFn x)‖ ≤ C / (m + 1) := by
    filter_upwards [cube_ae k] with x hx
    rw [Real.norm_eq_abs]
    refine (h _ (hin hx) x hx).trans ?_
    rw [div_eq_mul_one_div]
    refine mul_le_mul_of_nonneg_left ?_ hC
    refine (dist_pi_le_iff (by positivity)).2 fun a => ?_
    rw [Real.dist_eq]
    exact (axisCell_near hm ⟨hx.1 a, hx.2 a⟩).2
  have := norm_integral_le_of_norm_le_const hb
  simpa using this

theorem sums_close {α : Type} (S : List α) {f g : α → ℝ} {c : ℝ} (h : ∀ r ∈ S, |f r - g r| ≤ c) : |(S.map f).sum - (S.map g).sum| ≤ S.length * c := by
  induction S with
  | nil => simp
  | cons a as ih =>
    simp only [List.map_cons, List.sum_cons, List.length_cons]
    have h1 := h a (by simp)
    have h2 := ih fun r hr => h r (by simp [hr])
    push_cast
    rw [abs_le] at *
    constructor <;> linarith [h1.1, h1.2, h2.1, h2.2]

theorem averages_close {α : Type} (S : List α) {f g : α → ℝ} {c : ℝ} (hc : 0 ≤ c) (h : ∀ r ∈ S, |f r - g r| ≤ c) :
    |(S.map f).sum / S.length - (S.map g).sum / S.length| ≤ c := by
  rw [← sub_div, abs_div, Nat.abs_cast]
  refine div_le_of_le_mul₀ (by positivity) hc ?_
  rw [mul_comm]
  exact sums_close S h

/-- the integrand of the loss -/
theorem loss_lipschitz {k : Nat} {s : List ℝ → List ℝ → ℝ} {S : List (List ℝ)} {B C : ℝ} (hB0 : 0 ≤ B) (hC0 : 0 ≤ C)
    (hB : ∀ r ∈ S, ∀ t ∈ Set.Icc (0 : Fin k → ℝ) 1, |s (List.ofFn t) r| ≤ B)
    (hC : ∀ r ∈ S, ∀ t ∈ Set.Icc (0 : Fin k → ℝ) 1, ∀ t' ∈ Set.Icc (0 : Fin k → ℝ) 1, |s (List.ofFn t) r - s (List.ofFn t') r| ≤ C * dist t t') :
    ∀ t ∈ Set.Icc (0 : Fin k → ℝ) 1, ∀ t' ∈ Set.Icc (0 : Fin k → ℝ) 1,
      |(S.map fun r => (s (List.ofFn t) r ^ 2 - (S.map fun r => s (List.ofFn t) r ^ 2).sum / S.length) ^ 2).sum -
        (S.map fun r => (s (List.ofFn t') r ^ 2 - (S.map fun r => s (List.ofFn t') r ^ 2).sum / S.length) ^ 2).sum| ≤ 8 * S.length * B ^ 3 * C * dist t t' := by
  intro t ht t' ht'
  have hd : 0 ≤ C * dist t t' := mul_nonneg hC0 dist_nonneg
  obtain ⟨e, he⟩ : ∃ e, e = C * dist t t' := ⟨_, rfl⟩
  have hv : ∀ r ∈ S, |s (List.ofFn t) r ^ 2 - s (List.ofFn t') r ^ 2| ≤ 2 * B * e := by
    intro r hr
    rw [sq_sub_sq, abs_mul, he]
    refine mul_le_mul ?_ (hC r hr t ht t' ht') (abs_nonneg _) (by positivity)
    have a := hB r hr t ht
    have b := hB r hr t' ht'
    rw [abs_le] at *
    constructor <;> linarith [a.1, a.2, b.1, b.2]
  have hm := averages_close S (by rw [he]; positivity) hv
  have hdev : ∀ u ∈ Set.Icc (0 : Fin k → ℝ) 1, ∀ r ∈ S, |s (List.ofFn u) r ^ 2 - (S.map fun r => s (List.ofFn u) r ^ 2).sum / S.length| ≤ B ^ 2 := by
    intro u hu r hr
    have hsq : ∀ r ∈ S, 0 ≤ s (List.ofFn u) r ^ 2 ∧ s (List.ofFn u) r ^ 2 ≤ B ^ 2 := fun r hr => ⟨sq_nonneg _, by
      rw [← sq_abs]
      exact pow_le_pow_left₀ (abs_nonneg _) (hB r hr u hu) 2⟩
    have hn : (0 : ℝ) < S.length := by exact_mod_cast List.length_pos_of_mem hr
    have a1 : 0 ≤ (S.map fun r => s (List.ofFn u) r ^ 2).sum / S.length := by
      refine div_nonneg (List.sum_nonneg fun x hx => ?_) hn.le
      obtain ⟨r, hr, rfl⟩ := List.mem_map.1 hx
      exact sq_nonneg _
    have a2 : (S.map fun r => s (List.ofFn u) r ^ 2).sum / S.length ≤ B ^ 2 := by
      rw [div_le_iff₀ hn]
      have := List.sum_le_card_nsmul (S.map fun r => s (List.ofFn u) r ^ 2) (B ^ 2) (by
        intro x hx
        obtain ⟨r, hr, rfl⟩ := List.mem_map.1 hx
        exact (hsq r hr).2)
      rw [nsmul_eq_mul, List.length_map] at this
      linarith
    rw [abs_le]
    constructor <;> linarith [(hsq r hr).1, (hsq r hr).2]
  have h := sums_close S (f := fun r => (s (List.ofFn t) r ^ 2 - (S.map fun r => s (List.ofFn t) r ^ 2).sum / S.length) ^ 2)
    (g := fun r => (s (List.ofFn t') r ^ 2 - (S.map fun r => s (List.ofFn t') r ^ 2).sum / S.length) ^ 2) (c := 2 * B ^ 2 * (4 * B * e)) (by
      intro r hr
      rw [sq_sub_sq, abs_mul]
      refine mul_le_mul ?_ ?_ (abs_nonneg _) (by positivity)
      · have a := hdev t ht r hr
        have b := hdev t' ht' r hr
        rw [abs_le] at *
        constructor <;> linarith [a.1, a.2, b.1, b.2]
      · have a := hv r hr
        rw [abs_le] at *
        constructor <;> linarith [a.1, a.2, hm.1, hm.2])
  refine h.trans_eq ?_
  rw [he]
  ring

end errors

section tree
variable {space : ConfigSpace ℝ} {idx : List Nat} {mu sd : List ℝ → ℝ} {v : List ℝ → List ℝ → ℝ} {possible : List (Hp ℝ)} {N minPoints k : Nat}
  {grid : List (List ℝ)}

/-- the loss per grid point is the average of the integrand of the loss of the continuum -/
theorem gap_loss {S : List (List ℝ)} (hv : ∀ t ∈ grid, ∀ r ∈ S, sd (assignRow idx t r) ^ 2 = v t r) :
    curveLoss grid.length (S.map (curveAt idx grid mu sd)) = (grid.map fun t => (S.map fun r => (v t r - (S.map fun r => v t r).sum / S.length) ^ 2).sum).sum := by
  rw [curveLoss_samples S hv]
  congr 2
  funext t
  have := squares_about_mean (S.map fun r => v t r)
  rw [List.map_map, List.map_map, List.length_map] at this
  exact this.symm

theorem rows_lengths (S : List (List ℝ)) (f : Nat) (t : ℝ) : (rowsBelow S f t).length + (rowsAbove S f t).length = S.length := by
  unfold rowsBelow rowsAbove
  induction S with
  | nil => rfl
  | cons a as ih =>
    simp only [List.filter_cons, decide_eq_true_eq]
    by_cases h : a.getD f 0 ≤ t
    · simp only [if_pos h, if_neg (not_lt.2 h), List.length_cons]
      omega
    · simp only [if_neg h, if_pos (not_le.1 h), List.length_cons]
      omega

theorem gap_core (hwf : space.WF) (hgne : grid ≠ []) {δ η : ℝ} (hη : 0 ≤ η)
    (hfree : ∀ hp ∈ possible, ∀ f, IsFeature space hp f → f ∉ idx) (hmp : 1 ≤ minPoints) {depth : Int} {S : List (List ℝ)} {conds : List (Cond ℝ)} {d : Nat}
    {R : List (List (List ℝ) × List (Cond ℝ))} (hT : GapTree k v δ space possible N minPoints depth S conds d R) :
    (∀ S', (∀ r ∈ S', r ∈ S) → |curveLoss grid.length (S'.map (curveAt idx grid mu sd)) / grid.length - cubeLoss k v S'| ≤ S'.length * η) → 2 * S.length * η < δ →
    (∀ p ∈ R, ∀ r ∈ p.1, r ∈ S) ∧ (S ≠ [] → ∀ p ∈ R, p.1 ≠ []) ∧
    ∀ (m : Node ℝ) (L : List (Node ℝ)), m.depth = d → m.conds = conds →
      curves m = S.map (curveAt idx grid mu sd) → Greedy space possible N minPoints grid.length depth m L →
      List.Forall₂ (fun p m' => m'.conds = p.2 ∧ curves m' = p.1.map (curveAt idx grid mu sd)) R L := by
  have hcand : ∀ (S : List (List ℝ)) i j hp f, IsCandidate space possible N minPoints (S.map (curveAt idx grid mu sd)) i j hp f ↔
      IsRowCandidate space possible N minPoints S i j hp f := by
    intro S i j hp f
    constructor
    · rintro ⟨a1, a2, a3, a4, a5, a6⟩
      obtain ⟨e1, e2⟩ := parts_rows (mu := mu) (sd := sd) hgne (hfree hp (List.mem_of_getElem? a1) f a2) (threshold N j) S
      rw [e1, List.length_map] at a5
      rw [e2, List.length_map] at a6
      exact ⟨a1, a2, a3, a4, a5, a6⟩
    · rintro ⟨a1, a2, a3, a4, a5, a6⟩
      obtain ⟨e1, e2⟩ := parts_rows (mu := mu) (sd := sd) hgne (hfree hp (List.mem_of_getElem? a1) f a2) (threshold N j) S
      exact ⟨a1, a2, a3, a4, by rw [e1, List.length_map]; exact a5, by rw [e2, List.length_map]; exact a6⟩
  have hsub : ∀ (S : List (List ℝ)) f t, (∀ r ∈ rowsBelow S f t, r ∈ S) ∧ ∀ r ∈ rowsAbove S f t, r ∈ S := fun S f t =>
    ⟨fun r hr => (List.mem_filter.1 hr).1, fun r hr => (List.mem_filter.1 hr).1⟩
  have hPpos : (0 : ℝ) < grid.length := by exact_mod_cast List.length_pos_iff.2 hgne
  induction hT with
  | @leaf S conds d hstop =>
    intro hv hc
    refine ⟨by simp, by simp, ?_⟩
    intro m L hd hcond hcur hGr
    cases hGr with
    | leaf _ _ => exact .cons ⟨hcond, hcur⟩ .nil
    | branch _ h1 _ h3 _ _ _ =>
      exfalso
      rcases hstop with hstop | hstop
      · omega
      · have := h3.1
        rw [hcur, hcand] at this
        exact hstop _ _ _ _ this
  | @branch S conds d i j hp f Ll Lr hk' hca hb _ _ ihl ihr =>
    intro hv hc
    have hlens := rows_lengths S f (threshold N j)
    obtain ⟨il, il', el⟩ := ihl (fun S' h => hv S' fun r hr => (hsub S f _).1 r (h r hr)) (by
      refine lt_of_le_of_lt ?_ hc
      have : ((rowsBelow S f (threshold N j)).length : ℝ) ≤ S.length := by exact_mod_cast (by omega)
      gcongr)
    obtain ⟨ir, ir', er⟩ := ihr (fun S' h => hv S' fun r hr => (hsub S f _).2 r (h r hr)) (by
      refine lt_of_le_of_lt ?_ hc
      have : ((rowsAbove S f (threshold N j)).length : ℝ) ≤ S.length := by exact_mod_cast (by omega)
      gcongr)
    have n1 : rowsBelow S f (threshold N j) ≠ [] := by
      intro h0
      have := hca.left_size
      rw [h0, List.length_nil] at this
      omega
    have n2 : rowsAbove S f (threshold N j) ≠ [] := by
      intro h0
      have := hca.right_size
      rw [h0, List.length_nil] at this
      omega
    refine ⟨fun p hp r hr => (List.mem_append.1 hp).elim (fun h => (hsub S f _).2 r (ir p h r hr)) fun h => (hsub S f _).1 r (il p h r hr),
      fun _ p hp => (List.mem_append.1 hp).elim (ir' n2 p) (il' n1 p), ?_⟩
    have hcost : ∀ f' j' : ℕ, f' ∉ idx →
        |splitCost grid.length N (S.map (curveAt idx grid mu sd)) f' j' / grid.length - cubeCost k v N S f' j'| ≤ S.length * η := by
      intro f' j' hf'
      have a := hv (rowsBelow S f' (threshold N j')) (hsub S f' _).1
      have b := hv (rowsAbove S f' (threshold N j')) (hsub S f' _).2
      obtain ⟨e1, e2⟩ := parts_rows (mu := mu) (sd := sd) hgne hf' (threshold N j') S
      rw [splitCost, e1, e2, cubeCost, add_div, ← rows_lengths S f' (threshold N j')]
      push_cast
      rw [abs_le] at *
      constructor <;> linarith [a.1, a.2, b.1, b.2]
    have hfi := hfree hp (List.mem_of_getElem? hca.hp_at) f hca.feature
    intro m L hdep hcond hcur hGr
    obtain ⟨p1, p2⟩ := parts_rows (mu := mu) (sd := sd) hgne hfi (threshold N j) S
    have hbest : IsBestCandidate space possible N minPoints grid.length (curves m) i j hp f := by
      rw [hcur]
      refine ⟨(hcand _ _ _ _ _).2 hca, ?_⟩
      intro i' j' hp' f' hcand'
      have hfi' := hfree hp' (List.mem_of_getElem? hcand'.hp_at) f' hcand'.feature
      rcases hb i' j' hp' f' ((hcand _ _ _ _ _).1 hcand') with h | ⟨h, hord⟩
      · have : splitCost grid.length N (S.map (curveAt idx grid mu sd)) f j < splitCost grid.length N (S.map (curveAt idx grid mu sd)) f' j' := by
          rw [← div_lt_div_iff_of_pos_right hPpos]
          have c1 := (abs_le.1 (hcost f j hfi)).2
          have c2 := (abs_le.1 (hcost f' j' hfi')).1
          linarith
        exact ⟨this.le, fun e => absurd e this.ne⟩
      · have : splitCost grid.length N (S.map (curveAt idx grid mu sd)) f' j' = splitCost grid.length N (S.map (curveAt idx grid mu sd)) f j := by
          apply same_sides
          intro c hcm
          obtain ⟨r, hr, rfl⟩ := List.mem_map.1 hcm
          rw [featureOf_curveAt hgne hfi', featureOf_curveAt hgne hfi]
          exact h r hr
        exact ⟨this.ge, fun _ => hord⟩
    have hlen : 2 ≤ (curves m).length := by
      have s1 := hca.left_size
      have s2 := hca.right_size
      rw [← near_parts_length f (threshold N j) (curves m), hcur, p1, p2, List.length_map, List.length_map]
      omega
    cases hGr with
    | leaf _ hstop =>
      exfalso
      rcases hstop with h | h | h
      · omega
      · omega
      · exact h _ _ _ _ hbest.1
    | @branch _ l r Ll' Lr' i' j' hp' f' _ _ _ hbest' hsp hGl hGr =>
      obtain ⟨rfl, rfl, rfl, rfl⟩ := best_unique hwf hbest hbest'
      refine List.rel_append (er r Lr' ?_ ?_ ?_ hGr) (el l Ll' ?_ ?_ ?_ hGl)
      · rw [hsp.right_depth, hdep]
      · rw [hsp.right_conds, hcond]
      · rw [hsp.right_curves, hcur]; exact p2
      · rw [hsp.left_depth, hdep]
      · rw [hsp.left_conds, hcond]
      · rw [hsp.left_curves, hcur]; exact p1

/-- **C194** How fine a grid suffices. Let the standard deviations of the surrogate be at most `B`, let them change by at most `C` times the change of the selected
hyperparameters (normalised to [0, 1], largest change of a coordinate), and let every split of the tree `R` of the continuum be better by `δ` than all splits that
divide the samples differently. Then with more than `16 n B ^ 3 C / δ` grid points per axis (`n` samples) the leaves have exactly the conditions of the leaves of `R`
and hold exactly the curves of their samples. The loss per grid point of a leaf with `n'` samples differs from the loss of the continuum by at most
`8 n' B ^ 3 C` divided by the number of grid points per axis, and `mean_confidence` from its integral by at most `C` divided by this number. -/
theorem C194_tree (hwf : space.WF) {predict : Predict ℝ} (hp : RowWise space.length predict mu sd) {sel : Selection ℝ} {selected : List (Hp ℝ)}
    (hsel : convertHyperparameters sel space = .ok selected) (hmem : ∀ hp ∈ selected, hp ∈ space) (hd : (selected.map Hp.name).Nodup) (hne : selected ≠ [])
    {samples : List (List ℝ)} (hrows : ∀ r ∈ samples, r.length = space.length) (hs : samples ≠ []) {notSplittable : Option (Selection ℝ)} {ns : List (Hp ℝ)}
    (hns : notSplittableHps notSplittable space = .ok ns) (hmp : 1 ≤ minPoints) {depth : Int} (hdep : 0 < depth) {B C δ : ℝ} (hB0 : 0 ≤ B) (hC0 : 0 ≤ C)
    (hB : ∀ r ∈ samples, ∀ t ∈ Set.Icc (0 : Fin selected.length → ℝ) 1, |sd (atPoint space selected (List.ofFn t) r)| ≤ B)
    (hC : ∀ r ∈ samples, ∀ t ∈ Set.Icc (0 : Fin selected.length → ℝ) 1, ∀ t' ∈ Set.Icc (0 : Fin selected.length → ℝ) 1,
      |sd (atPoint space selected (List.ofFn t) r) - sd (atPoint space selected (List.ofFn t') r)| ≤ C * dist t t')
    {R : List (List (List ℝ) × List (Cond ℝ))}
    (hT : GapTree selected.length (fun t r => sd (atPoint space selected t r) ^ 2) δ space (possibleSplits space selected ns) N minPoints depth samples [] 0 R)
    {g : Nat} (hg : 2 ≤ g) (hfine : 16 * samples.length * B ^ 3 * C < δ * g) :
    ∃ p leaves, dtInit space predict sel samples g N minPoints notSplittable = .ok p ∧ (dtPartition p depth).2 = .ok leaves ∧
      List.Forall₂ (fun q m => m.conds = q.2 ∧ List.Forall₂ (IsCurveOf space selected (g ^ selected.length)) q.1 m.x ∧
        |regionLoss m.v / g ^ selected.length - cubeLoss selected.length (fun t r => sd (atPoint space selected t r) ^ 2) q.1| ≤ 8 * q.1.length * B ^ 3 * C / g ∧
        ∃ mc, meanConfidence m = .ok mc ∧ |mc - ∫ t, averageOver q.1 (fun r => |sd (atPoint space selected (List.ofFn t) r)|) ∂(unitCube selected.length)| ≤ C / g)
        R leaves := by
  have hk := List.length_pos_iff.2 hne
  obtain ⟨grid, hG, hGl, hGf⟩ := C40_grid (K := ℝ) hk g
  have hg0 : (0 : ℝ) < g := by exact_mod_cast (by omega : 0 < g)
  have hgne : grid ≠ [] := by
    intro h0
    rw [h0] at hGl
    have : 0 < g ^ selected.length := Nat.pow_pos (by omega)
    simp at hGl
    omega
  have hvc : ValidCfg (⟨space, selected, [], 0, 1, 1 ^ selected.length, false, predict⟩ : IceCfg ℝ) := ⟨hwf, hmem, hd, hne, by simp, rfl, rfl⟩
  obtain ⟨idx, hidx, -, -⟩ := hvc.idx
  have hrow : ∀ t ∈ grid, ∀ r ∈ samples, assignRow idx t r = atPoint space selected t r := fun t ht r hr =>
    assignRow_atPoint hvc hidx (hrows r hr) ((hGf.2 t).1 ht).1
  obtain ⟨p, q1, q2, q3, q4, q5, q6, q7, q8⟩ := dtInit_rows hwf hp hsel hmem hd hne hrows hs (by omega : 1 ≤ g) N minPoints hns hidx hG
  obtain ⟨idx', grid', hroot⟩ := rootOf hwf hp hrows hs (by omega : 1 ≤ g) q1 (by rw [q3]; exact hmem) (by rw [q3]; exact hd) (by rw [q3]; exact hne)
  have e1 := hroot.idx_eq
  have e2 := hroot.grid_eq
  rw [q3, hidx] at e1
  rw [q3, hG] at e2
  obtain rfl := Except.ok.inj e1
  obtain rfl := Except.ok.inj e2
  have hloss : ∀ S', (∀ r ∈ S', r ∈ samples) → |curveLoss grid.length (S'.map (curveAt idx grid mu sd)) / grid.length -
      cubeLoss selected.length (fun t r => sd (atPoint space selected t r) ^ 2) S'| ≤ S'.length * (8 * B ^ 3 * C / g) := by
    intro S' hS'
    rw [gap_loss (v := fun t r => sd (atPoint space selected t r) ^ 2) fun t ht r hr => by rw [hrow t ht r (hS' r hr)]]
    refine (grid_error hg hk hG (C := 8 * S'.length * B ^ 3 * C) (by positivity)
      (loss_lipschitz (s := fun t r => sd (atPoint space selected t r)) hB0 hC0 (fun r hr => hB r (hS' r hr)) fun r hr => hC r (hS' r hr))).trans_eq ?_
    ring
  have hfree := hroot.free
  rw [q4] at hfree
  obtain ⟨c1, c2, c3⟩ := gap_core (mu := mu) (sd := sd) hwf hgne (η := 8 * B ^ 3 * C / g) (by positivity) hfree hmp hT hloss (by
    rw [mul_div_assoc', div_lt_iff₀ hg0]
    linarith)
  obtain ⟨L, g1, -, g3, -⟩ := partition_eq hroot.valid hdep
  rw [hroot.space_eq, hroot.numSplits_eq, hroot.minPoints_eq, q4, ← hroot.grid_len] at g3
  refine ⟨p, L, q1, by rw [g1], ?_⟩
  refine forall₂_mem (c3 p.root L hroot.valid.depth hroot.valid.conds hroot.curves_eq g3) fun q m hq hm hcm => ?_
  obtain ⟨hcond, hcur⟩ := hcm
  have hshape := g3.shapes m hm
  have hlen : (grid.length : ℝ) = (g : ℝ) ^ selected.length := by
    rw [hGl]
    push_cast
    rfl
  refine ⟨hcond, ?_, ?_, _, rows_confidence (mu := mu) (selected := selected) (fun t ht r hr => hrow t ht r (c1 q hq r hr)) (c2 hs q hq) hshape hcur, ?_⟩
  · have hshape' := hshape
    rw [hroot.grid_len] at hshape'
    have := hroot.rows hshape' hcur
    rw [q3] at this
    exact this
  · rw [regionLoss_curves hshape, hcur, ← hlen]
    refine (hloss q.1 (c1 q hq)).trans_eq ?_
    ring
  · refine grid_error (F := fun t => averageOver q.1 fun r => |sd (atPoint space selected t r)|) hg hk hG hC0 fun t ht t' ht' => ?_
    exact averages_close q.1 (mul_nonneg hC0 dist_nonneg) fun r hr => (abs_abs_sub_abs_le_abs_sub _ _).trans (hC r (c1 q hq r hr) t ht t' ht')

/-- **C194** Whenever the tree of the continuum has only one best split in every region (C193), some margin `δ` exists. -/
theorem C194_margin {depth : Int} {S : List (List ℝ)} {conds : List (Cond ℝ)} {d : Nat} {R : List (List (List ℝ) × List (Cond ℝ))}
    (hT : CubeTree k v space possible N minPoints depth S conds d R) : ∃ δ > 0, GapTree k v δ space possible N minPoints depth S conds d R := by
  have : ∀ᶠ δ in 𝓝[>] (0 : ℝ), GapTree k v δ space possible N minPoints depth S conds d R := by
    induction hT with
    | leaf h => exact Eventually.of_forall fun δ => .leaf h
    | @branch S conds d i j hp f Ll Lr hk' hb _ _ ihl ihr =>
      have hgap : ∀ᶠ δ in 𝓝[>] (0 : ℝ), ∀ f' ∈ Finset.range space.length, ∀ j' ∈ Finset.range (N + 1), cubeCost k v N S f j < cubeCost k v N S f' j' →
          cubeCost k v N S f j + δ ≤ cubeCost k v N S f' j' := by
        rw [eventually_all_finset]
        intro f' _
        rw [eventually_all_finset]
        intro j' _
        by_cases h : cubeCost k v N S f j < cubeCost k v N S f' j'
        · have : Set.Ioc 0 (cubeCost k v N S f' j' - cubeCost k v N S f j) ∈ 𝓝[>] (0 : ℝ) := Ioc_mem_nhdsGT (by linarith)
          filter_upwards [this] with δ hδ _
          linarith [hδ.2]
        · exact Eventually.of_forall fun _ h' => absurd h' h
      filter_upwards [ihl, ihr, hgap] with δ hl hr hgap
      refine .branch hk' hb.cand ?_ hl hr
      intro i' j' hp' f' hc
      rcases hb.best i' j' hp' f' hc with h | h
      · have hflt : f' < space.length := by
          obtain ⟨x, hx, -⟩ := hc.feature
          exact (List.getElem?_eq_some_iff.1 hx).1
        exact .inl (hgap f' (Finset.mem_range.2 hflt) j' (Finset.mem_range.2 (by have := hc.le; omega)) h)
      · exact .inr h
  obtain ⟨δ, h1, h2⟩ := (this.and self_mem_nhdsWithin).exists
  exact ⟨δ, h2, h1⟩

end tree

section wedge

theorem wedge_gap : GapTree 1 wedgeV (6 * (31 / 5)) stSpace (possibleSplits stSpace [⟨"x1", .float (-5) 5 false⟩] []) 3 1 1 wedgeRows [] 0
    [([[0, 5 / 8], [0, 7 / 8]], [⟨⟨"x2", .float (-5) 5 false⟩, .flt (threshold 3 2), some false⟩]),
      ([[0, 1 / 8], [0, 3 / 8]], [⟨⟨"x2", .float (-5) 5 false⟩, .flt (threshold 3 2), some true⟩])] := by
  rw [half_possible]
  obtain ⟨b1, b2, b3⟩ := wedge_below
  obtain ⟨a1, a2, a3⟩ := wedge_above
  obtain ⟨c2, c1, c3⟩ := wedge_costs
  have hca : IsRowCandidate stSpace [⟨"x2", .float (-5) 5 false⟩] 3 1 wedgeRows 0 2 ⟨"x2", .float (-5) 5 false⟩ 1 :=
    ⟨rfl, (half_feature rfl).2 rfl, by norm_num, by norm_num, by rw [b2]; simp, by rw [a2]; simp⟩
  have hb : ∀ i' j' hp' f', IsRowCandidate stSpace [⟨"x2", .float (-5) 5 false⟩] 3 1 wedgeRows i' j' hp' f' →
      cubeCost 1 wedgeV 3 wedgeRows 1 2 + 6 * (31 / 5) ≤ cubeCost 1 wedgeV 3 wedgeRows f' j' ∨
        (∀ r ∈ wedgeRows, r.getD f' 0 ≤ threshold 3 j' ↔ r.getD 1 0 ≤ threshold 3 2) ∧ (0 < i' ∨ 0 = i' ∧ 2 ≤ j') := by
    intro i' j' hp' f' hc
    have hi : i' = 0 ∧ hp' = ⟨"x2", .float (-5) 5 false⟩ := by
      have := hc.hp_at
      cases i' with
      | zero => simpa using this.symm
      | succ n => simp at this
    obtain ⟨rfl, rfl⟩ := hi
    obtain rfl := (half_feature rfl).1 hc.feature
    have h1 := hc.one_le
    have h3 := hc.le
    obtain rfl | rfl | rfl : j' = 1 ∨ j' = 2 ∨ j' = 3 := by omega
    · left; rw [c2, c1]; norm_num
    · exact .inr ⟨fun _ _ => Iff.rfl, .inr ⟨rfl, le_rfl⟩⟩
    · left; rw [c2, c3]; norm_num
  have := GapTree.branch (maxDepth := 1) (conds := []) (d := 0) (by norm_num) hca hb (.leaf (.inl (by norm_num))) (.leaf (.inl (by norm_num)))
  rw [b2, a2] at this
  exact this

/-- 221 grid points suffice for the example of C193 -/
example {g : Nat} (hg : 221 ≤ g) : ∃ p upper lower a b,
    dtInit stSpace (fun rows => .ok (rows.map fun _ => 0, rows.map wedgeSd)) (.many [.name "x1"]) wedgeRows g 3 1 none = .ok p ∧
    (dtPartition p 1).2 = .ok [upper, lower] ∧ upper.x.length = 2 ∧ lower.x.length = 2 ∧ meanConfidence upper = .ok a ∧ meanConfidence lower = .ok b ∧
    |a - 3| ≤ 2 / g ∧ |b - 3 / 2| ≤ 2 / g := by
  have hval : ∀ r ∈ wedgeRows, ∃ c, 0 ≤ c ∧ c ≤ 2 ∧ ∀ t : Fin 1 → ℝ, wedgeSd (atPoint stSpace [⟨"x1", .float (-5) 5 false⟩] (List.ofFn t) r) = (1 + t 0) * c := by
    intro r hr
    have : ∃ b, r = [0, b] := by
      simp only [wedgeRows, List.mem_cons, List.not_mem_nil, or_false] at hr
      rcases hr with rfl | rfl | rfl | rfl <;> exact ⟨_, rfl⟩
    obtain ⟨b, rfl⟩ := this
    refine ⟨if b ≤ 1 / 2 then 1 else 2, by split <;> norm_num, by split <;> norm_num, fun t => ?_⟩
    rw [wedge_value]
    rfl
  have h := C194_tree (minPoints := 1) (N := 3) (mu := fun _ => 0) (sd := wedgeSd) (predict := fun rows => .ok (rows.map fun _ => 0, rows.map wedgeSd)) stSpace_wf
    (fun _ _ _ => rfl) (halfSetting (a := 1) (b := 2)).sel_eq (halfSetting (a := 1) (b := 2)).mem (halfSetting (a := 1) (b := 2)).distinct (by simp) (samples := wedgeRows)
    (by simp [wedgeRows, stSpace]) (by simp [wedgeRows]) (notSplittable := none) (ns := []) rfl le_rfl (depth := 1) (by norm_num) (B := 4) (C := 2) (by norm_num) (by norm_num)
    (by
      intro r hr t ht
      obtain ⟨c, h1, h2, h3⟩ := hval r hr
      have t0 : 0 ≤ t 0 := ht.1 0
      have t1 : t 0 ≤ 1 := ht.2 0
      refine (congrArg abs (h3 t)).le.trans ?_
      rw [abs_of_nonneg (by positivity)]
      nlinarith) (by
      intro r hr t ht t' ht'
      obtain ⟨c, h1, h2, h3⟩ := hval r hr
      refine (congrArg abs (congrArg₂ (· - ·) (h3 t) (h3 t'))).le.trans ?_
      have : (1 + t 0) * c - (1 + t' 0) * c = c * (t 0 - t' 0) := by ring
      rw [this, abs_mul, abs_of_nonneg h1]
      exact mul_le_mul h2 (dist_le_pi_dist t t' 0) (abs_nonneg _) (by norm_num)) wedge_gap (g := g) (by omega) (by
      have : (221 : ℝ) ≤ g := by exact_mod_cast hg
      simp only [wedgeRows, List.length_cons, List.length_nil]
      norm_num
      linarith)
  obtain ⟨p, leaves, h1, h2, h3⟩ := h
  have m1 : ∫ t : Fin 1 → ℝ, averageOver [[0, 5 / 8], [0, 7 / 8]] (fun r => |wedgeSd (atPoint stSpace [⟨"x1", .float (-5) 5 false⟩] (List.ofFn t) r)|) ∂(unitCube 1) = 3 := by
    have : ∀ᵐ t : Fin 1 → ℝ ∂(unitCube 1), averageOver [[0, 5 / 8], [0, 7 / 8]] (fun r => |wedgeSd (atPoint stSpace [⟨"x1", .float (-5) 5 false⟩] (List.ofFn t) r)|) =
        2 * (1 + (List.ofFn t).getD 0 0) := by
      filter_upwards [cube_ae 1] with t ht
      have h0 : 0 ≤ (List.ofFn t).getD 0 0 := ht.1 0
      simp only [averageOver, List.map_cons, List.map_nil, List.sum_cons, List.sum_nil, List.length_cons, List.length_nil, wedge_value]
      norm_num
      rw [abs_of_nonneg (by simpa using add_nonneg zero_le_one h0)]
      ring
    rw [integral_congr_ae this, integral_const_mul, wedge_mean]
    norm_num
  have m2 : ∫ t : Fin 1 → ℝ, averageOver [[0, 1 / 8], [0, 3 / 8]] (fun r => |wedgeSd (atPoint stSpace [⟨"x1", .float (-5) 5 false⟩] (List.ofFn t) r)|) ∂(unitCube 1) = 3 / 2 := by
    have : ∀ᵐ t : Fin 1 → ℝ ∂(unitCube 1), averageOver [[0, 1 / 8], [0, 3 / 8]] (fun r => |wedgeSd (atPoint stSpace [⟨"x1", .float (-5) 5 false⟩] (List.ofFn t) r)|) =
        1 + (List.ofFn t).getD 0 0 := by
      filter_upwards [cube_ae 1] with t ht
      have h0 : 0 ≤ (List.ofFn t).getD 0 0 := ht.1 0
      simp only [averageOver, List.map_cons, List.map_nil, List.sum_cons, List.sum_nil, List.length_cons, List.length_nil, wedge_value]
      norm_num
      exact add_nonneg zero_le_one h0
    rw [integral_congr_ae this, wedge_mean]
  cases h3 with
  | @cons _ u _ _ e1 h4 =>
    cases h4 with
    | @cons _ l _ _ e2 h5 =>
      cases h5
      obtain ⟨-, u1, -, a, a1, a2⟩ := e1
      obtain ⟨-, l1, -, b, b1, b2⟩ := e2
      refine ⟨p, u, l, a, b, h1, h2, ?_, ?_, a1, b1, ?_, ?_⟩
      · rw [← u1.length_eq]; rfl
      · rw [← l1.length_eq]; rfl
      · rw [← m1]; exact a2
      · rw [← m2]; exact b2

end wedge

end PyPDP
