/-
C96: plot_full_bayesian.
-/
import Verif.Props.AdvancedPlots
import Verif.Props.AcquisitionPlot
import Verif.Props.SurrogatePlots
import Verif.Props.SamplerPlots

namespace PyPDP
open Spec

variable {X S : Type}

theorem get_name_one {hp : Hp ℝ} {name : String} (hn : hp.name = name) : getHyperparameters (.name name) [hp] = .ok [hp] := by
  simp [getHyperparameters, ConfigSpace.get, hn]

/-- the surrogate on a new axis -/
theorem surrogate_one {hp : Hp ℝ} {l u : ℝ} {g : Bool} (h : ValidNumerical hp l u g) {predict : Predict ℝ} {mu sd : List ℝ → ℝ}
    (hp' : RowWise 1 predict mu sd) (hsd : ∀ r, 0 ≤ sd r) {ax ax' : Ax ℝ} (hax : checkAndSetAxis [hp] true "Prediction" ax = (ax', .ok ())) :
    ∃ shapes, (do surrogateMeans "blue" predict [hp] 100; surrogateConfidences "blue" "lightblue" predict [hp] 100 : Plot ℝ Unit) ax =
        (ax'.draw ([.line "blue" (naturalGrid l u g 100) ((List.range 100).map fun i => mu [gridValue 100 i])] ++ shapes), .ok ()) ∧
      ShowsConfidence "blue" "lightblue" (3 / 2) (naturalGrid l u g 100) ((List.range 100).map fun i => mu [gridValue 100 i])
        ((List.range 100).map fun i => sd [gridValue 100 i]) shapes := by
  obtain ⟨xs, ys, h1, h2, h3, h4⟩ := C85_means_one h hp' (n := 100) (by norm_num) "blue" hax
  have e1 : xs = naturalGrid l u g 100 := eq_range_map h2 fun i hi => (h4 i hi).1
  have e2 : ys = (List.range 100).map fun i => mu [gridValue 100 i] := eq_range_map h3 fun i hi => (h4 i hi).2
  subst e1 e2
  obtain ⟨xs, ys, s, shapes, k1, k2, k3, k4, k5, k6⟩ := C85_confidences_one h hp' hsd (n := 100) (by norm_num) "blue" "lightblue"
    (axis_again hax [.line "blue" (naturalGrid l u g 100) ((List.range 100).map fun i => mu [gridValue 100 i])])
  have e1 : xs = naturalGrid l u g 100 := eq_range_map k2 fun i hi => (k5 i hi).1
  have e2 : ys = (List.range 100).map fun i => mu [gridValue 100 i] := eq_range_map k3 fun i hi => (k5 i hi).2.1
  have e3 : s = (List.range 100).map fun i => sd [gridValue 100 i] := eq_range_map k4 fun i hi => (k5 i hi).2.2
  subst e1 e2 e3
  refine ⟨shapes, ?_, k6⟩
  rw [Plot.bind_ok h1, k1, Ax.draw_draw]

/-- a plot of three parts, the first two known -/
theorem three_parts {p1 p2 p3 : Plot ℝ Unit} {ax ax1 ax2 : Ax ℝ} {r : Py Unit} (h12 : (do p1; p2 : Plot ℝ Unit) ax = (ax1, .ok ()))
    (h3 : p3 ax1 = (ax2, r)) : (do p1; p2; p3 : Plot ℝ Unit) ax = (ax2, r) := by
  obtain ⟨a, b, h1, h2⟩ := Plot.bind_eq_ok.1 h12
  rw [Plot.bind_ok h1, Plot.bind_ok h2, h3]

section one
variable {argsort : List ℝ → List Nat} (hsort : Argsort argsort) {hp : Hp ℝ} (hname : hp.name = "x1") {l u : ℝ} {g : Bool}
  (h : ValidNumerical hp l u g) {predict : Predict ℝ} {mu sd : List ℝ → ℝ} (hp' : RowWise 1 predict mu sd) (hsd : ∀ r, 0 ≤ sd r)
  {s : SamplerState (Config ℝ) ℝ X} (hlen : s.configs.length = s.ys.length) {xs : List ℝ} (hxs : ReadsAs "x1" s.configs xs)
  (d : Drawer (Config ℝ) S) {n : Int} (hn : 2 ≤ n) (value : Config ℝ → ℝ)
  (hnames : ∀ r k, ∀ c ∈ (d.draw r k).1, c.values.map Prod.fst = ["x1"]) (hnum : ∀ r k, ∃ xs, ReadsAs "x1" (d.draw r k).1 xs) (rng : S)
include hsort hname h hp' hsd hlen hxs hn hnames hnum

/-- **C96**, partial: a sampler over a single numerical hyperparameter called `x1`. The first axis shows the predictions of the surrogate
model, the confidence around them, and the evaluated points; the second the acquisition function at the candidates of one draw, and in red
the best candidate of a second draw. Missing: the second axis shows one point more, see `C96_mark_counterexample`; a hyperparameter with
another name, see `C96_name_counterexample`. -/
theorem C96_one_partial : ∃ rng' axF axA bands xo yo xa ya best v w,
    fullBayesian argsort predict [hp] s d n value rng = (rng', axF, axA, .ok ()) ∧
    AxisOne hp "Prediction" l u g axF ([.line "blue" (naturalGrid l u g 100) ((List.range 100).map fun i => mu [gridValue 100 i])] ++ bands ++
      [.points "red" xo yo]) ∧
    ShowsConfidence "blue" "lightblue" (3 / 2) (naturalGrid l u g 100) ((List.range 100).map fun i => mu [gridValue 100 i])
      ((List.range 100).map fun i => sd [gridValue 100 i]) bands ∧
    xo.Pairwise (· ≤ ·) ∧ (xo.zip yo).Perm (xs.zip s.ys) ∧
    AxisOne hp "Acquisition" l u g axA [.band "darkgreen" xa ya (List.replicate n.toNat 0), .line "darkgreen" xa ya,
      .points "red" [v] [value best], .points "" [0] [w]] ∧
    (∃ zs, ReadsAs "x1" (d.draw rng n.toNat).1 zs ∧ xa.Pairwise (· ≤ ·) ∧ (xa.zip ya).Perm (zs.zip ((d.draw rng n.toNat).1.map value))) ∧
    FirstMax value (d.draw (d.draw rng n.toNat).2 n.toNat).1 best ∧ best.get? "x1" = some (.num v) ∧
    ∃ other, FirstMax value (d.draw (d.draw (d.draw rng n.toNat).2 n.toNat).2 n.toNat).1 other ∧ other.get? "x1" = some (.num w) := by
  have hax := newAxis_one h.1 "Prediction"
  obtain ⟨ax0, hax0⟩ : ∃ ax0 : Ax ℝ, ax0 = ⟨hp.name, "Prediction", g, false, some (l, u), none, []⟩ := ⟨_, rfl⟩
  rw [← hax0] at hax
  obtain ⟨bands, h1, h2⟩ := surrogate_one h hp' hsd hax
  have hsel : getHyperparameters (.name "x1") [hp] = .ok [hp] := get_name_one hname
  obtain ⟨xo, yo, h3, -, -, h4, h5⟩ := C86_one hsort hsel hlen (by rw [hname]; exact hxs) "red" (axis_again hax
    ([.line "blue" (naturalGrid l u g 100) ((List.range 100).map fun i => mu [gridValue 100 i])] ++ bands))
  have haxA := newAxis_one h.1 "Acquisition"
  obtain ⟨ax1, hax1⟩ : ∃ ax1 : Ax ℝ, ax1 = ⟨hp.name, "Acquisition", g, false, some (l, u), none, []⟩ := ⟨_, rfl⟩
  rw [← hax1] at haxA
  obtain ⟨zs, hzs⟩ := hnum rng n.toNat
  obtain ⟨xa, ya, best, k1, k2, k3, k4, k5, k6⟩ := acq_core hsort hsel d hn value rng (by rw [hname]; exact hzs) "darkgreen" "red" true haxA
  have hmem : ∀ {l : List (Config ℝ)} {c : Config ℝ}, FirstMax value l c → c ∈ l := fun ⟨k, hk, _⟩ => List.mem_of_getElem? hk
  obtain ⟨vs, hvs⟩ := hnum (d.draw rng n.toNat).2 n.toNat
  obtain ⟨v, -, hv⟩ := readsAs_mem hvs (hmem k5)
  obtain ⟨other, m1, m2⟩ := C39_best_partial ([hp].map Hp.name) d hn value (d.draw (d.draw rng n.toNat).2 n.toNat).2
  obtain ⟨ws, hws⟩ := hnum (d.draw (d.draw rng n.toNat).2 n.toNat).2 n.toNat
  obtain ⟨w, -, hw⟩ := readsAs_mem hws (hmem m2)
  rw [if_pos rfl, drawOptimum_first (p := hp) (rest := []) (by rw [hnames _ _ best (hmem k5)]; simp [hname]) (v := v) (by rw [hname]; exact hv),
    Ax.draw_draw] at k6
  refine ⟨(d.draw (d.draw (d.draw rng n.toNat).2 n.toNat).2 n.toNat).2, (ax0.draw ([.line "blue" (naturalGrid l u g 100)
    ((List.range 100).map fun i => mu [gridValue 100 i])] ++ bands)).draw [.points "red" xo yo], (ax1.draw ([.band "darkgreen" xa ya (ya.map fun _ => 0),
    .line "darkgreen" xa ya] ++ [.points "red" [v] [value best]])).draw [.points "" [0] [w]], bands, xo, yo, xa, ya, best, v, w, ?_, ?_, h2, h4, h5, ?_,
    ⟨zs, hzs, k3, k4⟩, k5, hv, other, m2, hw⟩
  · unfold fullBayesian
    rw [three_parts h1 h3]
    dsimp only
    rw [k6]
    dsimp only
    rw [m1]
    dsimp only
    have : pickedNumber "x1" (.config other) = .ok w := by simp [pickedNumber, configNumber, hw, asNumber]
    rw [this, Plot.lift_bind_ok, Plot.add_eq]
  · subst hax0; simp [AxisOne, Ax.draw]
  · subst hax1
    simp [AxisOne, Ax.draw, k2]

/-- **C96** is false: `ax.plot(x, marker="x")` takes the value of `x1` as the height. The last point of the second axis is over 0, whatever the
optimum is; if 0 is not a value of the hyperparameter, it is outside the limits of the axis. -/
theorem C96_mark_counterexample (hl : 0 < l) : ∃ rng' axF axA shapes w,
    fullBayesian argsort predict [hp] s d n value rng = (rng', axF, axA, .ok ()) ∧ axA.shapes = shapes ++ [.points "" [0] [w]] ∧
    axA.xlim = some (l, u) ∧ (0 : ℝ) ∉ Set.Icc l u := by
  obtain ⟨rng', axF, axA, bands, xo, yo, xa, ya, best, v, w, h1, -, -, -, -, h2, -⟩ :=
    C96_one_partial hsort hname h hp' hsd hlen hxs d hn value hnames hnum rng
  refine ⟨rng', axF, axA, [.band "darkgreen" xa ya (List.replicate n.toNat 0), .line "darkgreen" xa ya, .points "red" [v] [value best]], w, h1, ?_, ?_,
    fun h => absurd h.1 (not_le.2 hl)⟩
  · rw [h2]; rfl
  · rw [h2]

end one

/-- **C96** is false: for a single hyperparameter with any other name the surrogate is drawn, then KeyError. -/
theorem C96_name_counterexample (argsort : List ℝ → List Nat) {hp : Hp ℝ} (hname : hp.name ≠ "x1") {l u : ℝ} {g : Bool} (h : ValidNumerical hp l u g)
    {predict : Predict ℝ} {mu sd : List ℝ → ℝ} (hp' : RowWise 1 predict mu sd) (hsd : ∀ r, 0 ≤ sd r) (s : SamplerState (Config ℝ) ℝ X)
    (d : Drawer (Config ℝ) S) (n : Int) (value : Config ℝ → ℝ) (rng : S) :
    ∃ axF bands, fullBayesian argsort predict [hp] s d n value rng = (rng, axF, Ax.new, .error .key) ∧
      AxisOne hp "Prediction" l u g axF
        ([.line "blue" (naturalGrid l u g 100) ((List.range 100).map fun i => mu [gridValue 100 i])] ++ bands) := by
  obtain ⟨bands, h1, -⟩ := surrogate_one h hp' hsd (newAxis_one h.1 "Prediction")
  have hsel : getHyperparameters (.name "x1") [hp] = .error .key := by
    simp [getHyperparameters, ConfigSpace.get, hname]
  refine ⟨Ax.draw ⟨hp.name, "Prediction", g, false, some (l, u), none, []⟩
    ([.line "blue" (naturalGrid l u g 100) ((List.range 100).map fun i => mu [gridValue 100 i])] ++ bands), bands, ?_, by simp [AxisOne, Ax.draw]⟩
  unfold fullBayesian
  rw [three_parts h1 ((C86_refused argsort s "red" _).1 _ hsel)]

/-- **C96** two hyperparameters: ValueError after the surrogate - the first axis belongs to both, the evaluated points are to be plotted over
`x1` alone. (With the names of the hyperparameters not those of the labels of such a plot.) -/
theorem C96_two (argsort : List ℝ → List Nat) {p q : Hp ℝ} (hwf : ConfigSpace.WF [p, q]) (hx : p.name = "x1" ∨ q.name = "x1") (hpe : p.name ≠ "")
    (hqe : q.name ≠ "") (hq : q.name ≠ "Prediction") {l u : ℝ} {g : Bool} (h : ValidNumerical p l u g) {l' u' : ℝ} {g' : Bool}
    (h' : ValidNumerical q l' u' g') {predict : Predict ℝ} {mu sd : List ℝ → ℝ} (hp' : RowWise 2 predict mu sd) (s : SamplerState (Config ℝ) ℝ X)
    (d : Drawer (Config ℝ) S) (n : Int) (value : Config ℝ → ℝ) (rng : S) :
    ∃ axF xs ys z xs' ys' z', fullBayesian argsort predict [p, q] s d n value rng = (rng, axF, Ax.new, .error .value) ∧
      axF.shapes = [.mesh xs ys z, .mesh xs' ys' z'] := by
  have hax := newAxis_two h.1 h'.1 "Prediction"
  obtain ⟨ax0, hax0⟩ : ∃ ax0 : Ax ℝ, ax0 = ⟨p.name, q.name, g, g', some (l, u), some (l', u'), []⟩ := ⟨_, rfl⟩
  rw [← hax0] at hax
  obtain ⟨xs, ys, z, h1, -⟩ := C85_means_two h h' hp' (n := 100) (by norm_num) "blue" hax
  obtain ⟨xs', ys', z', h2, -⟩ := C85_confidences_two h h' hp' (n := 100) (by norm_num) "blue" "lightblue" (axis_again hax [.mesh xs ys z])
  have hne : p.name ≠ q.name := by simpa [ConfigSpace.WF] using hwf
  obtain ⟨t, ht, hsel⟩ : ∃ t : Hp ℝ, t.name = "x1" ∧ getHyperparameters (.name "x1") [p, q] = .ok [t] := by
    by_cases h1 : p.name = "x1"
    · exact ⟨p, h1, by simp [getHyperparameters, ConfigSpace.get, h1]⟩
    · have h2 := hx.resolve_left h1
      exact ⟨q, h2, by simp [getHyperparameters, ConfigSpace.get, h1, h2]⟩
  have hrej : (checkAndSetAxis [t] true "Prediction" ((ax0.draw [.mesh xs ys z]).draw [.mesh xs' ys' z'])).2 = .error .value := by
    rw [checkAndSetAxis_draw, checkAndSetAxis_draw]
    subst hax0
    by_cases h1 : p.name = "x1"
    · simp [checkAndSetAxis, ht, h1, hqe, hq]
    · simp [checkAndSetAxis, ht, h1, hpe]
  refine ⟨(ax0.draw [.mesh xs ys z]).draw [.mesh xs' ys' z'], xs, ys, z, xs', ys', z', ?_, by subst hax0; rfl⟩
  unfold fullBayesian
  rw [Plot.bind_ok h1, Plot.bind_ok h2, (C86_refused argsort s "red" _).2 _ _ _ hsel (Prod.ext rfl hrej)]

/-- **C96** three or more hyperparameters: AssertionError, both axes stay empty. -/
theorem C96_many (argsort : List ℝ → List Nat) {cs : ConfigSpace ℝ} (h : 3 ≤ cs.length) (predict : Predict ℝ) (s : SamplerState (Config ℝ) ℝ X)
    (d : Drawer (Config ℝ) S) (n : Int) (value : Config ℝ → ℝ) (rng : S) :
    fullBayesian argsort predict cs s d n value rng = (rng, Ax.new, Ax.new, .error .assertion) := by
  unfold fullBayesian
  rw [Plot.bind_error ((C85_many h predict 100 Ax.new).1 "blue")]

/-! ### a concrete sampler over `x1` in `[1, 3]`: the candidates 1, 2, 3, 1, ..., the acquisition function is largest at 2 -/

section examples

def exOneDrawer : Drawer (Config ℝ) Nat :=
  ⟨fun s k => ((List.range k).map fun i => ⟨[], [("x1", .num ((((s + i) % 3 : Nat) : ℝ) + 1))]⟩, s + k), by simp⟩

noncomputable def exOneValue (c : Config ℝ) : ℝ := match c.get? "x1" with
  | some (.num v) => 4 - (v - 2) ^ 2
  | _ => 0

theorem exOneDrawer_ok : (∀ r k, ∀ c ∈ (exOneDrawer.draw r k).1, c.values.map Prod.fst = ["x1"]) ∧
    ∀ r k, ∃ xs, ReadsAs "x1" (exOneDrawer.draw r k).1 xs := by
  refine ⟨fun r k c hc => ?_, fun r k => ⟨(List.range k).map fun i => (((r + i) % 3 : Nat) : ℝ) + 1, ?_⟩⟩
  · obtain ⟨i, -, rfl⟩ := List.mem_map.1 hc
    rfl
  · unfold ReadsAs
    show List.Forall₂ _ ((List.range k).map _) _
    rw [List.forall₂_map_left_iff, List.forall₂_map_right_iff]
    exact List.forall₂_same.2 fun i _ => rfl

/-- three candidates each time: the red mark is at `x1 = 2`, the additional one at `(0, 2)` -/
example : ∃ rng' axF axA bands xo yo xa ya, fullBayesian exArgsort exSum [⟨"x1", .float 1 3 false⟩] (⟨[], [], [], 0, ()⟩ : SamplerState (Config ℝ) ℝ Unit)
      exOneDrawer 3 exOneValue 0 = (rng', axF, axA, .ok ()) ∧
    axF.shapes = [.line "blue" (naturalGrid 1 3 false 100) ((List.range 100).map fun i => gridValue 100 i)] ++ bands ++ [.points "red" xo yo] ∧
    axA.shapes = [.band "darkgreen" xa ya [0, 0, 0], .line "darkgreen" xa ya, .points "red" [2] [4], .points "" [0] [2]] := by
  obtain ⟨rng', axF, axA, bands, xo, yo, xa, ya, best, v, w, h1, h2, -, -, -, h3, -, h4, h5, other, h6, h7⟩ := C96_one_partial (X := Unit)
    exArgsort_sorts (hp := ⟨"x1", .float 1 3 false⟩) rfl ⟨Or.inl rfl, by norm_num, by simp⟩ (mu := fun r => r.sum) (sd := fun _ => 2) (fun _ _ _ => rfl : RowWise 1 exSum _ _) (fun _ => by norm_num)
    (s := ⟨[], [], [], 0, ()⟩) rfl (xs := []) .nil exOneDrawer (n := 3) (by norm_num) exOneValue exOneDrawer_ok.1 exOneDrawer_ok.2 0
  have key : ∀ (r : Nat) (c : Config ℝ) (t : ℝ), r % 3 = 0 → FirstMax exOneValue (exOneDrawer.draw r 3).1 c → c.get? "x1" = some (.num t) →
      t = 2 ∧ exOneValue c = 4 := by
    rintro r c t hr ⟨i, hi, hmax, -⟩ ht
    have e : (exOneDrawer.draw r 3).1 = [⟨[], [("x1", .num 1)]⟩, ⟨[], [("x1", .num 2)]⟩, ⟨[], [("x1", .num 3)]⟩] := by
      have a : (r + 0) % 3 = 0 := by omega
      have b : (r + 1) % 3 = 1 := by omega
      have c : (r + 2) % 3 = 2 := by omega
      simp only [exOneDrawer, List.range_succ, List.range_zero, List.nil_append, List.map_append, List.map_cons, List.map_nil, a, b, c]
      norm_num
    rw [e] at hi hmax
    have hv : ∀ x : ℝ, exOneValue ⟨[], [("x1", .num x)]⟩ = 4 - (x - 2) ^ 2 := fun x => by simp [exOneValue, Config.get?]
    have hx : ∀ x : ℝ, (⟨[], [("x1", .num x)]⟩ : Config ℝ).get? "x1" = some (.num x) := fun x => by simp [Config.get?]
    have h2 := hmax ⟨[], [("x1", .num 2)]⟩ (by simp)
    have hc := List.mem_of_getElem? hi
    simp only [List.mem_cons, List.not_mem_nil, or_false] at hc
    rcases hc with rfl | rfl | rfl <;> simp only [hv] at h2 <;> rw [hx] at ht
    · norm_num at h2
    · rw [hv]
      obtain rfl := Val.num.inj (Option.some.inj ht)
      norm_num
    · norm_num at h2
  obtain ⟨rfl, e1⟩ := key 3 best v rfl h4 h5
  obtain ⟨rfl, -⟩ := key 6 other w rfl h6 h7
  refine ⟨rng', axF, axA, bands, xo, yo, xa, ya, h1, ?_, ?_⟩
  · rw [h2]; simp
  · rw [h3, e1]; rfl

end examples

end PyPDP
