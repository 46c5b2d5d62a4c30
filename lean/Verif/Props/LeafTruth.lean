/-
C199: the plots of the leaves against the blackbox function.
-/
import Verif.Props.LeafPdp
import Verif.Props.TrueMinimum

namespace PyPDP
open Spec

/-- the root of a mean of squares is at most a bound on all of them -/
theorem deviationAt_le {T : List (List ℝ)} (hT : T ≠ []) {sd : List ℝ → ℝ} {f : Nat} {t σ : ℝ} (h : ∀ r ∈ T, |sd (r.set f t)| ≤ σ) : deviationAt T sd f t ≤ σ := by
  have hσ : 0 ≤ σ := by
    obtain ⟨r, hr⟩ := List.exists_mem_of_ne_nil _ hT
    exact (abs_nonneg _).trans (h r hr)
  have hpos : (0 : ℝ) < T.length := by exact_mod_cast List.length_pos_iff.2 hT
  refine Real.sqrt_le_iff.2 ⟨hσ, ?_⟩
  unfold meanOver
  rw [div_le_iff₀ hpos]
  have : (T.map fun r => sd (r.set f t) ^ 2).sum ≤ (T.map fun _ => σ ^ 2).sum := by
    refine List.sum_le_sum fun r hr => ?_
    rw [← sq_abs]
    exact pow_le_pow_left₀ (abs_nonneg _) (h r hr) 2
  refine this.trans (le_of_eq ?_)
  simp [mul_comm]

/-- **C199** Let one hyperparameter be selected, let the surrogate be off by at most `B` predicted standard deviations, and let its means and standard deviations change by at most `C`
and `D` times the change of the normalised hyperparameter. The leaves of `partition` divide the samples. For every leaf, with samples `T`: over every value between the bounds the line of
`plot_values` of the leaf is within `B` times `deviationAt T` plus `C / (2 (n - 1))` of the partial dependence of the blackbox function over `T`, so within `B σ` plus the same if the
standard deviations of the leaf's samples there are at most `σ`; and if `B ≤ 2` that partial dependence lies between the outer lines of `plot_confidences` of the leaf, up to
`(C + 2 D) / (2 (n - 1))`. -/
theorem C199_leaves {space : ConfigSpace ℝ} {predict : Predict ℝ} {mu sd : List ℝ → ℝ} {sel : Selection ℝ} {samples : List (List ℝ)} {n N minPoints : Nat} (hmp : 1 ≤ minPoints)
    {notSplittable : Option (Selection ℝ)} {p : DT ℝ} (hinit : dtInit space predict sel samples n N minPoints notSplittable = .ok p) (hc : Plottable p.cfg mu sd) {depth : Int}
    (hdep : 0 < depth) {hp : Hp ℝ} (hsel : p.cfg.selected = [hp]) {l u : ℝ} {g : Bool} (hk : hp.kind = .float l u g ∨ hp.kind = .integer l u g) (hlu : l < u) (hg : g = true → 0 < l)
    {f : Nat} (hf : IsFeature space hp f) (hn : 2 ≤ n) {ax ax' : Ax ℝ} (hax : checkAndSetAxis [hp] true "Prediction" ax = (ax', .ok ()))
    (hlin : g = false → ax.xlog = false) (color gradientColor : String) {maxSigma : ℝ} (hmax : 0 < maxSigma) {B C D : ℝ} (hB : 0 ≤ B) (hD : 0 ≤ D) {h : List ℝ → ℝ}
    (hcov : ∀ r ∈ samples, ∀ t ∈ Set.Icc (0 : ℝ) 1, |mu (r.set f t) - h (r.set f t)| ≤ B * sd (r.set f t))
    (hCD : ∀ r ∈ samples, ∀ t ∈ Set.Icc (0 : ℝ) 1, ∀ t' ∈ Set.Icc (0 : ℝ) 1, |mu (r.set f t) - mu (r.set f t')| ≤ C * |t - t'| ∧
      |sd (r.set f t) - sd (r.set f t')| ≤ D * |t - t'|) :
    ∃ (leaves : List (Node ℝ)) (parts : List (List (List ℝ))), (dtPartition p depth).2 = .ok leaves ∧ parts.flatten.Perm samples ∧
      List.Forall₂ (fun T m => T ≠ [] ∧ T.Sublist samples ∧
        (∃ xs ys, regionPlotValues color p.cfg.space p.cfg.selected m ax = (ax'.draw [.line color xs ys], .ok ()) ∧ ∀ t ∈ Set.Icc (0 : ℝ) 1,
          (∃ y, OnLine ax'.xlog xs ys (interpolate l u g t) y) ∧ ∀ y, OnLine ax'.xlog xs ys (interpolate l u g t) y →
            |y - dependenceAt T h f t| ≤ B * deviationAt T sd f t + C / (2 * ((n : ℝ) - 1)) ∧
            ∀ σ, (∀ r ∈ T, |sd (r.set f t)| ≤ σ) → |y - dependenceAt T h f t| ≤ B * σ + C / (2 * ((n : ℝ) - 1))) ∧
        (B ≤ 2 → ∃ (bands : List (Shape ℝ)) (xs lo1 hi1 lo2 hi2 : List ℝ), regionPlotConfidences color gradientColor maxSigma p.cfg.space p.cfg.selected m ax =
            (ax'.draw (bands ++ [.line color xs lo1, .line color xs hi1, .line color xs lo2, .line color xs hi2]), .ok ()) ∧ bands.length = 100 ∧ ∀ t ∈ Set.Icc (0 : ℝ) 1,
          ∃ y y', OnLine ax'.xlog xs lo2 (interpolate l u g t) y ∧ OnLine ax'.xlog xs hi2 (interpolate l u g t) y' ∧
            y - (C + 2 * D) / (2 * ((n : ℝ) - 1)) ≤ dependenceAt T h f t ∧ dependenceAt T h f t ≤ y' + (C + 2 * D) / (2 * ((n : ℝ) - 1)))) parts leaves := by
  obtain ⟨c, ns, i, dd, hca, hns, -, -, -, e⟩ := dtInit_ok hinit
  have hpc : p.cfg = c := by rw [e]
  obtain ⟨a1, a2, a3, a4, a5, -⟩ := algorithmInit_eq hca
  rw [← hpc] at a1 a2 a3 a4 a5
  obtain ⟨leaves, parts, b1, b2, b3⟩ := C198_leaves (a2 ▸ hc.valid.wf) (predict := predict) (mu := mu) (sd := sd) (by have := hc.predict; rwa [a2, a5] at this)
    (by have := hc.valid.rows; rwa [a2, a3] at this) (a3 ▸ hc.samples) (by omega) hmp hinit (by have := hc.valid.sel_mem; rwa [a2] at this) hc.valid.sel_distinct hc.valid.sel_ne hdep
  refine ⟨leaves, parts, b1, b2, b3.imp fun T m hT => ?_⟩
  obtain ⟨t1, t2, cT, s, curve, k1, k2, -, -, -, -, -, k3, k4⟩ := hT
  refine ⟨t1, t2, ?_⟩
  have hs : s = ⟨cT, none, none, none, none⟩ := by
    rw [pdpInit, k1] at k2
    exact (Except.ok.inj k2).symm
  obtain ⟨d1, d2, d3, d4, d5, d6, d7, d8⟩ := algorithmInit_eq k1
  have dsel : cT.selected = p.cfg.selected := Except.ok.inj (d1.symm.trans a1)
  have hpl : Plottable s.cfg mu sd := by
    rw [hs]
    refine ⟨⟨?_, ?_, ?_, ?_, ?_, ?_, ?_⟩, ?_, ?_, ?_, ?_, ?_⟩ <;> dsimp only
    · rw [d2, ← a2]; exact hc.valid.wf
    · rw [d2, dsel, ← a2]; exact hc.valid.sel_mem
    · rw [dsel]; exact hc.valid.sel_distinct
    · rw [dsel]; exact hc.valid.sel_ne
    · rw [d2, d3, ← a2]; exact fun r hr => hc.valid.rows r (by rw [a3]; exact t2.subset hr)
    · rw [d6, d3]
    · rw [d7, d4]
    · rw [d2, ← a2]; exact hc.declared
    · rw [d3]; exact fun r hr => hc.unit r (by rw [a3]; exact t2.subset hr)
    · rw [d3]; exact t1
    · rw [d4]; omega
    · rw [d2, d5, ← a2, ← a5]; exact hc.predict
  have hss : s.cfg.samples = T := by rw [hs]; exact d3
  have hsn : s.cfg.perAxis = n := by rw [hs]; exact d4
  obtain ⟨⟨s', xs, ys, q1, q2⟩, -, q3⟩ := C197_truth (s := s) (by rw [hs]; exact ⟨rfl, rfl, rfl⟩) (by rw [hs]) hpl (by rw [hs]; exact dsel.trans hsel) hk hlu hg
    (by rw [hs]; dsimp only; rw [d2]; exact hf) (by rw [hsn]; exact hn) hax hlin color gradientColor hmax hB hD (h := h)
    (by rw [hss]; exact fun r hr => hcov r (t2.subset hr)) (by rw [hss]; exact fun r hr => hCD r (t2.subset hr))
  rw [hss, hsn] at q2 q3
  refine ⟨⟨xs, ys, by rw [k3, q1], fun t ht => ⟨(q2 t ht).1, fun y hy => ⟨(q2 t ht).2 y hy, fun σ hσ => ((q2 t ht).2 y hy).trans ?_⟩⟩⟩, fun hB2 => ?_⟩
  · have := mul_le_mul_of_nonneg_left (deviationAt_le t1 hσ) hB
    linarith
  · obtain ⟨s'', bands, xs, lo1, hi1, lo2, hi2, w1, w2⟩ := q3 hB2
    exact ⟨bands, xs, lo1, hi1, lo2, hi2, by rw [k4, w1], w2⟩

section ex

private noncomputable def calmSd (r : List ℝ) : ℝ := if r.getD 1 0 ≤ 1 / 2 then 1 / 10 else 1
private def calmSpace : ConfigSpace ℝ := [⟨"x", .float 0 1 false⟩, ⟨"y", .float 0 1 false⟩]

/-- A surrogate which is sure where "y" is at most 1/2 and off by one standard deviation everywhere: leaves with such samples only show the truth up to 3/20. -/
example : ∃ (p : DT ℝ) (leaves : List (Node ℝ)) (parts : List (List (List ℝ))),
    dtInit calmSpace (fun X => .ok (X.map fun r => r.getD 0 0, X.map calmSd)) (.name "x") [[0, 1 / 4], [0, 3 / 4]] 11 1 1 none = .ok p ∧
    (dtPartition p 1).2 = .ok leaves ∧ parts.flatten.Perm [[0, 1 / 4], [0, 3 / 4]] ∧
    List.Forall₂ (fun T m => T ≠ [] ∧ ∃ xs ys, regionPlotValues "red" p.cfg.space p.cfg.selected m Ax.new =
        (⟨"x", "Prediction", false, false, some (0, 1), none, [.line "red" xs ys]⟩, .ok ()) ∧
      ((∀ r ∈ T, r.getD 1 0 ≤ 1 / 2) → ∀ t ∈ Set.Icc (0 : ℝ) 1, ∃ y, OnLine false xs ys t y ∧ |y - dependenceAt T (fun r => r.getD 0 0 - calmSd r) 0 t| ≤ 3 / 20)) parts leaves := by
  have hwf : calmSpace.WF := by simp [ConfigSpace.WF, calmSpace]
  have hrow : RowWise calmSpace.length (fun X => .ok (X.map fun r => r.getD 0 0, X.map calmSd)) (fun r => r.getD 0 0) calmSd := fun _ _ _ => rfl
  obtain ⟨grid, hgr, -, -⟩ := C40_grid (K := ℝ) (k := 1) le_rfl 11
  have hs1 : convertHyperparameters (.name "x") calmSpace = .ok [⟨"x", .float 0 1 false⟩] := rfl
  obtain ⟨p, h1, h2, h3, -, -, -, -, -⟩ := dtInit_rows hwf hrow hs1 (by simp [calmSpace]) (by simp) (by simp) (samples := [[0, 1 / 4], [0, 3 / 4]])
    (by simp [calmSpace]) (by simp) (perAxis := 11) (by norm_num) 1 1 (notSplittable := none) rfl (idx := [0]) rfl (grid := grid) hgr
  obtain ⟨c, ns, i, dd, hca, -, -, -, -, e⟩ := dtInit_ok h1
  have hpc : p.cfg = c := by rw [e]
  obtain ⟨a1, a2, a3, a4, a5, a6, a7, -⟩ := algorithmInit_eq hca
  rw [← hpc] at a1 a2 a3 a4 a5 a6 a7
  have hpl : Plottable p.cfg (fun r => r.getD 0 0) calmSd := by
    refine ⟨⟨?_, ?_, ?_, ?_, ?_, ?_, ?_⟩, ?_, ?_, ?_, ?_, ?_⟩
    · rw [a2]; exact hwf
    · rw [h3, a2]; simp [calmSpace]
    · rw [h3]; simp
    · rw [h3]; simp
    · rw [a2, a3]; simp [calmSpace]
    · rw [a6, a3]
    · rw [a7, a4]
    · rw [a2]
      intro hp hm
      simp only [calmSpace, List.mem_cons, List.not_mem_nil, or_false] at hm
      rcases hm with rfl | rfl
      · exact ⟨0, 1, false, hwf, ⟨_, by simp [calmSpace], rfl, .inl rfl⟩, by norm_num, by simp⟩
      · exact ⟨0, 1, false, hwf, ⟨_, by simp [calmSpace], rfl, .inl rfl⟩, by norm_num, by simp⟩
    · rw [a3]
      intro r hr e he
      simp only [List.mem_cons, List.not_mem_nil, or_false] at hr
      rcases hr with rfl | rfl <;>
      · simp only [List.mem_cons, List.not_mem_nil, or_false] at he
        rcases he with rfl | rfl <;> norm_num
    · rw [a3]; simp
    · rw [a4]; norm_num
    · rw [a2, a5]; exact hrow
  have hpos : ∀ r, 0 ≤ calmSd r := fun r => by unfold calmSd; split <;> norm_num
  obtain ⟨leaves, parts, b1, b2, b3⟩ := C199_leaves le_rfl h1 hpl (depth := 1) one_pos (hp := ⟨"x", .float 0 1 false⟩) h3 (.inl rfl) (by norm_num) (by simp) (f := 0)
    ⟨_, rfl, rfl⟩ (by norm_num) (ax := Ax.new) (ax' := ⟨"x", "Prediction", false, false, some (0, 1), none, []⟩) rfl (fun _ => rfl) "red" "blue" (maxSigma := 2) (by norm_num)
    (B := 1) (C := 1) (D := 0) zero_le_one le_rfl (h := fun r => r.getD 0 0 - calmSd r) (by
      intro r _ t _
      rw [sub_sub_cancel, abs_of_nonneg (hpos _), one_mul]) (by
      intro r hr t _ t' _
      simp only [List.mem_cons, List.not_mem_nil, or_false] at hr
      rcases hr with rfl | rfl <;> simp [calmSd])
  refine ⟨p, leaves, parts, h1, b1, b2, b3.imp fun T m hT => ?_⟩
  obtain ⟨t1, t2, ⟨xs, ys, q1, q2⟩, -⟩ := hT
  refine ⟨t1, xs, ys, q1, fun hcalm t ht => ?_⟩
  obtain ⟨⟨y, hy⟩, hall⟩ := q2 t ht
  have := (hall y hy).2 (1 / 10) (fun r hr => by
    have h0 := hcalm r hr
    have h1 : (r.set 0 t).getD 1 0 = r.getD 1 0 := by simp [List.getD_eq_getElem?_getD]
    rw [calmSd, h1, if_pos h0, abs_of_pos (by norm_num)])
  rw [show interpolate 0 1 false t = t by simp [interpolate]] at hy
  exact ⟨y, hy, this.trans (by norm_num)⟩

end ex

end PyPDP
