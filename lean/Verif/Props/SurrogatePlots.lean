/-
C85: plot_means and plot_confidences of a surrogate model.
-/
import Verif.Props.PdpPlots
import Verif.Props.PlotFunction

namespace PyPDP
open Spec

/-- the range of a hyperparameter in natural units, value by value -/
theorem uniformRange_interpolate {hp : Hp ℝ} {l u : ℝ} {g : Bool} (h : ValidNumerical hp l u g) (n : Nat) :
    ∃ row, uniformRange n false hp = .ok row ∧ row.length = n ∧ ∀ i < n, row[i]? = some (interpolate l u g (gridValue n i)) := by
  have hnum : hp.numerical? = some (l, u, g) := by rcases h.1 with hk | hk <;> simp [Hp.numerical?, hk]
  have hlin : ∀ (a b : ℝ) (i : Nat), i < n → (linspace a b n)[i]? = some ((1 - gridValue n i) * a + gridValue n i * b) := by
    intro a b i hi
    unfold gridValue
    split
    · rename_i h1
      subst h1
      have : i = 0 := by omega
      subst this
      simp [linspace_one]
    · rw [linspace_getElem? a b hi (by omega)]
      congr 1
      ring
  unfold uniformRange
  rw [hnum]
  cases g with
  | false =>
    refine ⟨linspace l u n, by simp, by simp, fun i hi => ?_⟩
    rw [hlin l u i hi]
    simp [interpolate]
  | true =>
    have hl : 0 < l := h.2.2 rfl
    have hu : 0 < u := hl.trans h.2.1
    refine ⟨(linspace (Real.logb 10 l) (Real.logb 10 u) n).map fun e => (10 : ℝ) ^ e, by simp, by simp, fun i hi => ?_⟩
    rw [List.getElem?_map, hlin _ _ i hi]
    simp only [Option.map_some, interpolate, if_true]
    congr 1
    rw [Real.rpow_add (by norm_num), mul_comm _ (Real.logb 10 l), mul_comm _ (Real.logb 10 u), Real.rpow_mul (by norm_num),
      Real.rpow_mul (by norm_num), Real.rpow_logb (by norm_num) (by norm_num) hl, Real.rpow_logb (by norm_num) (by norm_num) hu]

theorem ranges_one {p : Hp ℝ} {l u : ℝ} {g : Bool} (h : ValidNumerical p l u g) (n : Nat) :
    ∃ xs, getUniformDistributedRanges [p] n false = .ok [xs] ∧ xs.length = n ∧ ∀ i < n, xs[i]? = some (interpolate l u g (gridValue n i)) := by
  obtain ⟨xs, h1, h2, h3⟩ := uniformRange_interpolate h n
  refine ⟨xs, ?_, h2, h3⟩
  simp [getUniformDistributedRanges, h1]

theorem ranges_two {p q : Hp ℝ} {l u l' u' : ℝ} {g g' : Bool} (h : ValidNumerical p l u g) (h' : ValidNumerical q l' u' g') (n : Nat) :
    ∃ xs ys, getUniformDistributedRanges [p, q] n false = .ok [xs, ys] ∧ xs.length = n ∧ ys.length = n ∧
      (∀ i < n, xs[i]? = some (interpolate l u g (gridValue n i))) ∧ ∀ i < n, ys[i]? = some (interpolate l' u' g' (gridValue n i)) := by
  obtain ⟨xs, h1, h2, h3⟩ := uniformRange_interpolate h n
  obtain ⟨ys, h4, h5, h6⟩ := uniformRange_interpolate h' n
  refine ⟨xs, ys, ?_, h2, h5, h3, h6⟩
  simp [getUniformDistributedRanges, h1, h4]

theorem surrogatePlot_one {p : Hp ℝ} {l u : ℝ} {g : Bool} (h : ValidNumerical p l u g) {predict : Predict ℝ} {mu sd : List ℝ → ℝ}
    (hp : RowWise 1 predict mu sd) {n : Nat} (hn : 1 ≤ n) {ax ax' : Ax ℝ} (hax : checkAndSetAxis [p] true "Prediction" ax = (ax', .ok ()))
    (pick : List ℝ × List ℝ → List ℝ) (line : List ℝ → List ℝ × List ℝ → Plot ℝ Unit) :
    ∃ xs ys s, xs.length = n ∧ ys.length = n ∧ s.length = n ∧
      (∀ i < n, xs[i]? = some (interpolate l u g (gridValue n i)) ∧ ys[i]? = some (mu [gridValue n i]) ∧ s[i]? = some (sd [gridValue n i])) ∧
      surrogatePlot predict [p] n pick line ax = line xs (ys, s) ax' := by
  obtain ⟨xs, h1, h2, h3⟩ := ranges_one h n
  refine ⟨xs, (linspace 0 1 n).map fun t => mu [t], (linspace 0 1 n).map fun t => sd [t], h2, by simp, by simp, fun i hi => ⟨h3 i hi, ?_, ?_⟩, ?_⟩
  · rw [List.getElem?_map, linspace_gridValue hi]; rfl
  · rw [List.getElem?_map, linspace_gridValue hi]; rfl
  · unfold surrogatePlot
    rw [if_pos (by simp), Plot.bind_ok hax, h1, Plot.lift_bind_ok]
    simp only [drawSurrogate]
    have hne : (linspace (0 : ℝ) 1 n).map (fun t => [t]) ≠ [] := by
      intro h0
      have := congrArg List.length h0
      simp at this
      omega
    rw [hp _ hne (by simp), Plot.lift_bind_ok, show pyGet [xs] 0 = .ok xs from rfl, Plot.lift_bind_ok, List.map_map, List.map_map]
    rfl

theorem surrogatePlot_two {p q : Hp ℝ} {l u l' u' : ℝ} {g g' : Bool} (h : ValidNumerical p l u g) (h' : ValidNumerical q l' u' g')
    {predict : Predict ℝ} {mu sd : List ℝ → ℝ} (hp : RowWise 2 predict mu sd) {n : Nat} (hn : 1 ≤ n) {ax ax' : Ax ℝ}
    (hax : checkAndSetAxis [p, q] true "Prediction" ax = (ax', .ok ())) {pick : List ℝ × List ℝ → List ℝ} {shown : List ℝ → ℝ}
    (hpick : ∀ X : List (List ℝ), pick (X.map mu, X.map sd) = X.map shown) (line : List ℝ → List ℝ × List ℝ → Plot ℝ Unit) :
    ∃ xs ys z, surrogatePlot predict [p, q] n pick line ax = (ax'.draw [.mesh xs ys z], .ok ()) ∧ xs.length = n ∧ ys.length = n ∧ Shape2 n n z ∧
      (∀ i < n, xs[i]? = some (interpolate l u g (gridValue n i)) ∧ ys[i]? = some (interpolate l' u' g' (gridValue n i))) ∧
      ∀ i < n, ∀ j < n, at2 z j i = some (shown [gridValue n i, gridValue n j]) := by
  obtain ⟨xs, ys, h1, h2, h3, h4, h5⟩ := ranges_two h h' n
  obtain ⟨L, hL⟩ : ∃ L, L = linspace (0 : ℝ) 1 n := ⟨_, rfl⟩
  have hLl : L.length = n := by rw [hL, linspace_length]
  have hLi : ∀ i < n, L[i]? = some (gridValue n i) := fun i hi => by rw [hL]; exact linspace_gridValue hi
  refine ⟨xs, ys, transpose2 n (L.map fun a => L.map fun b => shown [a, b]), ?_, h2, h3, ⟨?_, ?_⟩, fun i hi => ⟨h4 i hi, h5 i hi⟩, ?_⟩
  · unfold surrogatePlot
    rw [if_pos (by simp), Plot.bind_ok hax, h1, Plot.lift_bind_ok]
    simp only [drawSurrogate]
    have hne : meshPoints (linspace (0 : ℝ) 1 n) ≠ [] := by
      rw [← hL]
      intro h0
      obtain ⟨a, as, rfl⟩ := List.exists_cons_of_ne_nil (show L ≠ [] by rintro rfl; simp at hLl; omega)
      simp [meshPoints] at h0
    have hresh : reshape2 n n (pick ((meshPoints (linspace (0 : ℝ) 1 n)).map mu, (meshPoints (linspace (0 : ℝ) 1 n)).map sd)) =
        .ok (L.map fun a => L.map fun b => shown [a, b]) := by
      rw [hpick, ← hL]
      have := reshape2_rows (fun a => L.map fun b => shown [a, b]) n (y := L) (by simp [hLl])
      rw [hLl] at this
      rw [← this]
      congr 1
      unfold meshPoints
      rw [List.map_flatMap]
      simp [Function.comp_def]
    rw [show pyGet [xs, ys] 0 = .ok xs from rfl, Plot.lift_bind_ok, show pyGet [xs, ys] 1 = .ok ys from rfl, Plot.lift_bind_ok,
      hp _ hne (fun r hr => by
        simp only [meshPoints, List.mem_flatMap, List.mem_map] at hr
        obtain ⟨a, -, b, -, rfl⟩ := hr
        rfl),
      Plot.lift_bind_ok, hresh, Plot.lift_bind_ok, Plot.add_eq]
  · simp [transpose2]
  · intro r hr
    simp only [transpose2, List.mem_map] at hr
    obtain ⟨k, -, rfl⟩ := hr
    simp [hLl]
  · intro i hi j hj
    simp only [at2, transpose2, List.getElem?_map, List.getElem?_range hj, Option.map_some, Option.bind_some, hLi i hi]
    congr 1
    rw [List.getD_eq_getElem?_getD, List.getElem?_map, hLi j hj]
    rfl

/-- **C85** means, one hyperparameter: one line, the predictions of the mean at evenly spaced points of `[0, 1]` over the same points in
natural units. -/
theorem C85_means_one {p : Hp ℝ} {l u : ℝ} {g : Bool} (h : ValidNumerical p l u g) {predict : Predict ℝ} {mu sd : List ℝ → ℝ}
    (hp : RowWise 1 predict mu sd) {n : Nat} (hn : 1 ≤ n) (color : String) {ax ax' : Ax ℝ}
    (hax : checkAndSetAxis [p] true "Prediction" ax = (ax', .ok ())) :
    ∃ xs ys, surrogateMeans color predict [p] n ax = (ax'.draw [.line color xs ys], .ok ()) ∧ xs.length = n ∧ ys.length = n ∧
      ∀ i < n, xs[i]? = some (interpolate l u g (gridValue n i)) ∧ ys[i]? = some (mu [gridValue n i]) := by
  obtain ⟨xs, ys, s, h1, h2, -, h4, h5⟩ := surrogatePlot_one h hp hn hax (·.1) fun x p => plotLine color x p.1
  refine ⟨xs, ys, ?_, h1, h2, fun i hi => ⟨(h4 i hi).1, (h4 i hi).2.1⟩⟩
  unfold surrogateMeans
  rw [h5]
  unfold plotLine drawLine
  rw [if_pos ⟨by norm_num, by norm_num, by rw [h1, h2]⟩, Plot.add_eq]

/-- **C85** means, two hyperparameters: a mesh whose entry over the `i`-th value of the first and the `j`-th of the second hyperparameter is
the prediction there. -/
theorem C85_means_two {p q : Hp ℝ} {l u l' u' : ℝ} {g g' : Bool} (h : ValidNumerical p l u g) (h' : ValidNumerical q l' u' g')
    {predict : Predict ℝ} {mu sd : List ℝ → ℝ} (hp : RowWise 2 predict mu sd) {n : Nat} (hn : 1 ≤ n) (color : String) {ax ax' : Ax ℝ}
    (hax : checkAndSetAxis [p, q] true "Prediction" ax = (ax', .ok ())) :
    ∃ xs ys z, surrogateMeans color predict [p, q] n ax = (ax'.draw [.mesh xs ys z], .ok ()) ∧ xs.length = n ∧ ys.length = n ∧ Shape2 n n z ∧
      (∀ i < n, xs[i]? = some (interpolate l u g (gridValue n i)) ∧ ys[i]? = some (interpolate l' u' g' (gridValue n i))) ∧
      ∀ i < n, ∀ j < n, at2 z j i = some (mu [gridValue n i, gridValue n j]) :=
  surrogatePlot_two h h' hp hn hax (fun _ => rfl) _

/-- **C85** confidences, one hyperparameter: the bands and lines of the predicted standard deviations around the predicted means. -/
theorem C85_confidences_one {p : Hp ℝ} {l u : ℝ} {g : Bool} (h : ValidNumerical p l u g) {predict : Predict ℝ} {mu sd : List ℝ → ℝ}
    (hp : RowWise 1 predict mu sd) (hsd : ∀ r, 0 ≤ sd r) {n : Nat} (hn : 1 ≤ n) (lineColor gradientColor : String) {ax ax' : Ax ℝ}
    (hax : checkAndSetAxis [p] true "Prediction" ax = (ax', .ok ())) :
    ∃ xs ys s shapes, surrogateConfidences lineColor gradientColor predict [p] n ax = (ax'.draw shapes, .ok ()) ∧
      xs.length = n ∧ ys.length = n ∧ s.length = n ∧ (∀ i < n, xs[i]? = some (interpolate l u g (gridValue n i)) ∧
        ys[i]? = some (mu [gridValue n i]) ∧ s[i]? = some (sd [gridValue n i])) ∧
      ShowsConfidence lineColor gradientColor (3 / 2) xs ys s shapes := by
  obtain ⟨xs, ys, s, h1, h2, h3, h4, h5⟩ := surrogatePlot_one h hp hn hax (·.2) fun x p => do
    confidenceGradients x p.1 (some p.2) none gradientColor 100 (3 / 2)
    confidenceLines x p.1 (some p.2) none lineColor (.seq [1, 2])
  obtain ⟨shapes, hd, hs⟩ := confidences_drawn (xs := xs) (y := ys) (s := s) (by rw [h1, h2]) (by rw [h1, h3]) (by
    intro t ht
    obtain ⟨i, hi, rfl⟩ := List.getElem_of_mem ht
    have := (h4 i (by rw [← h3]; exact hi)).2.2
    rw [List.getElem?_eq_getElem hi] at this
    rw [Option.some.inj this]
    exact hsd _) lineColor gradientColor (maxSigma := 3 / 2) (by norm_num) ax'
  exact ⟨xs, ys, s, shapes, h5.trans hd, h1, h2, h3, h4, hs⟩

/-- **C85** confidences, two hyperparameters: the mesh of the predicted standard deviations. -/
theorem C85_confidences_two {p q : Hp ℝ} {l u l' u' : ℝ} {g g' : Bool} (h : ValidNumerical p l u g) (h' : ValidNumerical q l' u' g')
    {predict : Predict ℝ} {mu sd : List ℝ → ℝ} (hp : RowWise 2 predict mu sd) {n : Nat} (hn : 1 ≤ n) (lineColor gradientColor : String)
    {ax ax' : Ax ℝ} (hax : checkAndSetAxis [p, q] true "Prediction" ax = (ax', .ok ())) :
    ∃ xs ys z, surrogateConfidences lineColor gradientColor predict [p, q] n ax = (ax'.draw [.mesh xs ys z], .ok ()) ∧
      xs.length = n ∧ ys.length = n ∧ Shape2 n n z ∧
      (∀ i < n, xs[i]? = some (interpolate l u g (gridValue n i)) ∧ ys[i]? = some (interpolate l' u' g' (gridValue n i))) ∧
      ∀ i < n, ∀ j < n, at2 z j i = some (sd [gridValue n i, gridValue n j]) :=
  surrogatePlot_two h h' hp hn hax (fun _ => rfl) _

/-- **C85** three or more hyperparameters: AssertionError, the axis is untouched. -/
theorem C85_many {cs : ConfigSpace ℝ} (h : 3 ≤ cs.length) (predict : Predict ℝ) (n : Nat) (ax : Ax ℝ) :
    (∀ color, surrogateMeans color predict cs n ax = (ax, .error .assertion)) ∧
    ∀ lc gc, surrogateConfidences lc gc predict cs n ax = (ax, .error .assertion) := by
  constructor <;> intros <;> simp only [surrogateMeans, surrogateConfidences, surrogatePlot] <;> rw [if_neg (by omega)] <;> rfl

/-- **C85** an axis that shows something else: its ValueError, nothing is drawn. -/
theorem C85_axis {cs : ConfigSpace ℝ} (h : cs.length < 3) (predict : Predict ℝ) (n : Nat) {ax ax' : Ax ℝ} {e : PyErr}
    (hax : checkAndSetAxis cs true "Prediction" ax = (ax', .error e)) :
    (∀ color, surrogateMeans color predict cs n ax = (ax, .error .value)) ∧
    ∀ lc gc, surrogateConfidences lc gc predict cs n ax = (ax, .error .value) := by
  have := (C71_rejected ax cs true "Prediction").2 e (by rw [hax])
  rw [hax] at this
  obtain ⟨rfl, he⟩ := this
  dsimp only at he
  subst he
  constructor <;> intros <;> simp only [surrogateMeans, surrogateConfidences, surrogatePlot] <;> rw [if_pos h, Plot.bind_error hax]

/-- the hypotheses hold: a surrogate over a linear and a logarithmic hyperparameter -/
example : ValidNumerical ⟨"x1", .float (-5) 5 false⟩ (-5) 5 false ∧ ValidNumerical ⟨"x2", .integer 1 100 true⟩ 1 100 true ∧
    RowWise 1 (fun X => .ok (X.map fun r => r.sum, X.map fun _ => (2 : ℝ))) (fun r => r.sum) (fun _ => 2) ∧
    checkAndSetAxis [⟨"x1", .float (-5) 5 false⟩] true "Prediction" (Ax.new : Ax ℝ) =
      (⟨"x1", "Prediction", false, false, some (-5, 5), none, []⟩, .ok ()) := by
  refine ⟨⟨Or.inl rfl, by norm_num, by simp⟩, ⟨Or.inr rfl, by norm_num, by norm_num⟩, fun X _ _ => rfl, ?_⟩
  simp [checkAndSetAxis, Ax.new, Ax.boundX, Hp.numerical?]

example : surrogateMeans "b" (fun X => .ok (X.map fun r => r.sum, X.map fun _ => 2)) [⟨"x1", .float (-5) 5 false⟩] 3 Ax.new =
    (⟨"x1", "Prediction", false, false, some (-5, 5), none, [.line "b" [-5, 0, 5] [0, 1 / 2, 1]]⟩, .ok ()) := by
  have hr : getUniformDistributedRanges [⟨"x1", .float (-5) 5 false⟩] 3 false = .ok [[-5, 0, 5]] := by
    simp only [getUniformDistributedRanges, List.mapM_cons, List.mapM_nil, uniformRange, Hp.numerical?, linspace]
    simp [List.range_succ]
    norm_num
  have hl : linspace (0 : ℝ) 1 3 = [0, 1 / 2, 1] := by
    simp [linspace, List.range_succ]
    norm_num
  simp [surrogateMeans, surrogatePlot, drawSurrogate, hr, hl, Plot.bind_apply, checkAndSetAxis, Ax.new, Ax.boundX, Hp.numerical?, Plot.lift,
    plotLine, drawLine, Plot.add, pyGet]

end PyPDP
