/-
C116: the figures 1 to 4 of examples/main_paper.py (`figure_1_3`, `figure_2`, `figure_4`).
-/
import Verif.Model.PaperFigures
import Verif.Props.MainMeta
import Verif.Props.MainIntroduction
import Verif.Props.BadNll

namespace PyPDP
open Spec
variable {S : Type}

/-! ### the sampler and the space -/

/-- the two hyperparameters: number `e` is `x1`, number `o` is `x2` -/
structure TwoSpace (cs : ConfigSpace ℝ) (p q hp other : Hp ℝ) (e o : Nat) : Prop where
  st : StSpace 2 cs
  eq : cs = [p, q]
  get : cs.get "x1" = .ok hp
  at_e : cs[e]? = some hp
  at_o : cs[o]? = some other
  sum : e + o = 1
  name : hp.name = "x1"
  other_name : other.name = "x2"

theorem two_space {order : SpaceOrder ℝ} (hord : ∀ l, (order l).Perm l) {f : BlackboxFn ℝ}
    (hf : forNDimensions order (-5) 5 false styblinskiTangValue ((2 : Nat) : ℝ) none none = .ok f) :
    f = ⟨f.cs, styblinskiTangValue f.cs⟩ ∧ ∃ p q hp other e o, TwoSpace f.cs p q hp other e o := by
  obtain ⟨cs, hf', hs, hnames⟩ := stSpace_ok hord 2
  rw [hf] at hf'
  obtain rfl := Except.ok.inj hf'
  refine ⟨rfl, ?_⟩
  dsimp only
  obtain ⟨hp, hm, hn⟩ := hnames 1 (by norm_num) (by norm_num)
  obtain ⟨other, hm', hn'⟩ := hnames 2 (by norm_num) (by norm_num)
  have hn1 : hp.name = "x1" := hn
  have hn2 : other.name = "x2" := hn'
  obtain ⟨p, q, hpq⟩ := List.length_eq_two.1 hs.len
  have hget : cs.get "x1" = .ok hp := by rw [← hn1]; exact ConfigSpace.get_of_mem hs.wf hm
  have hne : ¬ hp = other := fun h => by rw [h, hn2] at hn1; exact absurd hn1 (by decide)
  rw [hpq] at hm hm'
  simp only [List.mem_cons, List.not_mem_nil, or_false] at hm hm'
  rcases hm with rfl | rfl <;> rcases hm' with rfl | rfl
  · exact absurd rfl hne
  · exact ⟨_, _, _, _, 0, 1, hs, hpq, hget, by rw [hpq]; rfl, by rw [hpq]; rfl, rfl, hn1, hn2⟩
  · exact ⟨_, _, _, _, 1, 0, hs, hpq, hget, by rw [hpq]; rfl, by rw [hpq]; rfl, rfl, hn1, hn2⟩
  · exact absurd rfl hne

/-! ### figure_4 -/

/-- the rows with a value of at most `t` in column `o`, and the others -/
noncomputable def below (o : Nat) (t : ℝ) (rows : List (List ℝ)) : List (List ℝ) := rows.filter fun r => decide (r.getD o 0 ≤ t)
noncomputable def above (o : Nat) (t : ℝ) (rows : List (List ℝ)) : List (List ℝ) := rows.filter fun r => decide (t < r.getD o 0)

/-- the squared deviations of the variances of the rows from their mean, over the grid of column `e` -/
noncomputable def varianceLoss (sd : List ℝ → ℝ) (e P : Nat) (rows : List (List ℝ)) : ℝ :=
  ∑ p ∈ Finset.range P, (rows.map fun r => (sd (r.set e (gridValue P p)) ^ 2 - meanOver rows fun r' => sd (r'.set e (gridValue P p)) ^ 2) ^ 2).sum

/-- threshold number `j` of `N` leaves at least `m` rows on both sides -/
def Admissible (N m o : Nat) (rows : List (List ℝ)) (j : Nat) : Prop :=
  1 ≤ j ∧ j ≤ N ∧ m ≤ (below o (threshold N j) rows).length ∧ m ≤ (above o (threshold N j) rows).length

/-- the loss of both sides -/
noncomputable def thresholdLoss (sd : List ℝ → ℝ) (N e o P : Nat) (rows : List (List ℝ)) (j : Nat) : ℝ :=
  varianceLoss sd e P (below o (threshold N j) rows) + varianceLoss sd e P (above o (threshold N j) rows)

/-- the tree before the partition: its curves are those of the samples -/
theorem dt_root {d : Nat} {cs : ConfigSpace ℝ} (hs : StSpace d cs) {hp : Hp ℝ} {e : Nat} (he : cs[e]? = some hp) {predict : Predict ℝ} {mu sd : List ℝ → ℝ}
    (hrow : RowWise cs.length predict mu sd) {samples : List (List ℝ)} (hrl : ∀ r ∈ samples, r.length = List.length cs) (hsne : samples ≠ [])
    {perAxis : Nat} (hg : 1 ≤ perAxis) (numSplits minPoints : Nat) {sel : Selection ℝ} (hsel : convertHyperparameters sel cs = .ok [hp]) :
    ∃ (grid : List (List ℝ)) (q : DT ℝ), grid = (linspace 0 1 perAxis).map (fun t => [t]) ∧ grid.length = perAxis ∧
      dtInit cs predict sel samples perAxis numSplits minPoints none = .ok q ∧ ValidDT perAxis q ∧
      q.cfg = ⟨cs, [hp], samples, samples.length, perAxis, perAxis ^ 1, false, predict⟩ ∧ q.possible = possibleSplits cs [hp] [] ∧
      q.numSplits = numSplits ∧ q.minPoints = minPoints ∧ curves q.root = samples.map (curveOf cs [hp] mu sd grid) := by
  have hh := List.mem_of_getElem? he
  obtain ⟨grid, dat, hgr, hgl, hfull, hcalc, hdx, hdy, hdv⟩ := ice_curves (selected := [hp]) hs.wf (by simpa using hh) (by simp) (by simp) hrl hsne hg hrow
  obtain ⟨c, hc⟩ : ∃ c : IceCfg ℝ, c = ⟨cs, [hp], samples, samples.length, perAxis, perAxis ^ [hp].length, false, predict⟩ := ⟨_, rfl⟩
  have hgrid : grid = (linspace 0 1 perAxis).map fun t => [t] := by
    rw [List.length_singleton, gridPoints_one] at hgr
    exact (Except.ok.inj hgr).symm
  have hglen : grid.length = perAxis := by rw [hgrid, List.length_map, linspace_length]
  rw [← hc] at hcalc
  obtain ⟨i', hra, -, -⟩ := (readAll_fresh (fresh_init c)).1 dat hcalc
  have hnode : mkNode 0 dat.x dat.y dat.v ([] : List (Cond ℝ)) = .ok ⟨0, dat.x, dat.y, dat.v, []⟩ := by
    unfold mkNode rowsAgree
    rw [if_pos (by simp [hdx, hdy, hdv, curveOf])]
  have hown : ownIce c = .ok (iceInit c) := ownIce_eq (by rw [hc]) (by rw [hc]) (by rw [hc])
  obtain ⟨q, hq⟩ : ∃ q : DT ℝ, q = ⟨c, possibleSplits cs [hp] [], numSplits, minPoints, i', ⟨0, dat.x, dat.y, dat.v, []⟩, []⟩ := ⟨_, rfl⟩
  have hcs : c.space = cs := by rw [hc]
  have hcl : c.selected = [hp] := by rw [hc]
  have hinit : algorithmInit cs predict sel samples perAxis = .ok c := by rw [algorithmInit, hsel, hc]; rfl
  have hdt : dtInit cs predict sel samples perAxis numSplits minPoints none = .ok q := by
    unfold dtInit
    rw [hinit, Py.ok_bind, notSplittableHps, Py.ok_bind]
    dsimp only
    rw [hown, Py.ok_bind, hra, Py.ok_bind]
    dsimp only
    rw [hnode, Py.ok_bind, hq, hcl]
    rfl
  have hqc : q.cfg = c := by rw [hq]
  have hqr : curves q.root = samples.map (curveOf cs [hp] mu sd grid) := by
    rw [hq]
    unfold curves
    dsimp only
    rw [hdx, hdy, hdv, zip_map3]
  obtain ⟨hv, -, -, -⟩ := dt_valid hs.wf hrl hg hdt (by rw [hqc, hcl]; simpa using hh) (by rw [hqc, hcl]; simp) (by rw [hqc, hcl]; simp)
  rw [hqc, hcl, List.length_singleton, pow_one] at hv
  exact ⟨grid, q, hgrid, hglen, hdt, hv, by rw [hqc, hc]; rfl, by rw [hq], by rw [hq], by rw [hq], hqr⟩

theorem feature_set {d : Nat} {cs : ConfigSpace ℝ} (hs : StSpace d cs) {hp : Hp ℝ} {e o : Nat} (he : cs[e]? = some hp) (heo : e ≠ o) {mu sd : List ℝ → ℝ} {P : Nat} (hP : 1 ≤ P)
    {grid : List (List ℝ)} (hgrid : grid = (linspace 0 1 P).map fun t => [t]) {r : List ℝ} (hr : r.length = List.length cs) :
    featureOf o (curveOf cs [hp] mu sd grid r) = r.getD o 0 := by
  have h0 : grid[0]? = some [gridValue P 0] := by
    rw [hgrid, List.getElem?_map, (linspace_fraction (by omega)).1]; rfl
  have : (grid.map fun t => replaced cs [hp] t r)[0]? = some (r.set e (gridValue P 0)) := by
    rw [List.getElem?_map, h0, Option.map_some, replaced_one hs.wf he hr]
  simp only [featureOf, curveOf, List.getD_eq_getElem?_getD]
  rw [this, Option.getD_some, List.getElem?_set_ne heo]

theorem loss_rows {d : Nat} {cs : ConfigSpace ℝ} (hs : StSpace d cs) {hp : Hp ℝ} {e : Nat} (he : cs[e]? = some hp) {mu sd : List ℝ → ℝ} {P : Nat}
    {grid : List (List ℝ)} (hgrid : grid = (linspace 0 1 P).map fun t => [t]) {rows : List (List ℝ)} (hr : ∀ r ∈ rows, r.length = List.length cs) :
    curveLoss P (rows.map (curveOf cs [hp] mu sd grid)) = varianceLoss sd e P rows := by
  unfold curveLoss varianceLoss
  refine Finset.sum_congr rfl fun p hp' => ?_
  have hp' := Finset.mem_range.1 hp'
  have hg : grid[p]? = some [gridValue P p] := by
    rw [hgrid, List.getElem?_map, (linspace_fraction hp').1]; rfl
  have hval : ∀ r ∈ rows, (curveOf cs [hp] mu sd grid r).2.2.getD p 0 = sd (r.set e (gridValue P p)) ^ 2 := by
    intro r hr'
    simp only [curveOf, List.getD_eq_getElem?_getD, List.getElem?_map, hg, Option.map_some, Option.getD_some, replaced_one hs.wf he (hr r hr')]
  have hmean : meanVar p (rows.map (curveOf cs [hp] mu sd grid)) = meanOver rows fun r' => sd (r'.set e (gridValue P p)) ^ 2 := by
    unfold meanVar meanOver
    rw [List.map_map, List.length_map]
    congr 2
    exact List.map_congr_left fun r hr' => hval r hr'
  rw [hmean, List.map_map]
  congr 1
  exact List.map_congr_left fun r hr' => by simp only [Function.comp, hval r hr']

/-- **C116** `figure_4`. If no threshold of `x2` leaves enough samples on both sides the script raises an AssertionError and saves nothing. Otherwise the image shows the
predictions for all samples over the grid of `x1`, coloured by the threshold of `x2` with the smallest loss (the first one): green above it, blue below. The region called
`left_region` is the one *above* the threshold. -/
theorem C116_figure4 {i : MainInput S} {f : BlackboxFn ℝ} (hf : forNDimensions i.order (-5) 5 false styblinskiTangValue ((2 : Nat) : ℝ) none none = .ok f)
    (hi : i.Good f.cs) {draws : List (Config ℝ)} (hdraws : i.iceDraws = .many draws) (kind : AcqKind) {n nCandidates : Int} (hn1 : 1 ≤ n) (hn : 2 ≤ nCandidates)
    {perAxis : Nat} (hg : 1 ≤ perAxis) (N : Nat) {m : Nat} (hm : 1 ≤ m) (g : Gallery) :
    ∃ (p q hp other : Hp ℝ) (e o : Nat) (configs : List (Config ℝ)) (ys : List ℝ) (gp : GpSurrogate) (mu sd : List ℝ → ℝ) (rows : List (List ℝ)),
      TwoSpace f.cs p q hp other e o ∧ rows = draws.map Config.vector ∧
      configs.length = n.toNat ∧ ys.length = n.toNat ∧ (∀ c ∈ configs, DrawnFrom f.cs c) ∧
      (∀ (j : Nat) c y, configs[j]? = some c → ys[j]? = some y → f.value c = .ok y) ∧
      (loadCache i.ofVec i.file = [] → OptimisedBy 2 i kind 8 nCandidates.toNat configs ys) ∧
      GpSurrogate.new.fit i.choose (configs.map Config.vector) ys = (gp, .ok ()) ∧ RowWise 2 gp.predict mu sd ∧
      ((∀ j, ¬ Admissible N m o rows j) → figure4 i kind n nCandidates perAxis N m g = (g, .error .assertion)) ∧
      ((∃ j, Admissible N m o rows j) → ∃ (j : Nat) (tree : DT ℝ) (left right : Node ℝ) (ax : Ax ℝ),
        Admissible N m o rows j ∧ (∀ k, Admissible N m o rows k → thresholdLoss sd N e o perAxis rows j ≤ thresholdLoss sd N e o perAxis rows k ∧
          (thresholdLoss sd N e o perAxis rows j = thresholdLoss sd N e o perAxis rows k → j ≤ k)) ∧
        figure4 i kind n nCandidates perAxis N m g = (⟨g.count, saveFig g.files "Figure 4.png" [ax]⟩, .ok ⟨tree, left, right⟩) ∧
        left.conds = [⟨other, .flt (threshold N j), some false⟩] ∧ right.conds = [⟨other, .flt (threshold N j), some true⟩] ∧
        AxisOne hp "Prediction" (-5) 5 false ax ((above o (threshold N j) rows).map (sampleLine "green" mu e perAxis) ++
          (below o (threshold N j) rows).map (sampleLine "blue" mu e perAxis))) := by
  obtain ⟨hfe, p, q, hp, other, e, o, hsp⟩ := two_space hi.order hf
  obtain ⟨cs, hcs⟩ : ∃ cs, cs = f.cs := ⟨_, rfl⟩
  have hfcs : f = ⟨cs, styblinskiTangValue cs⟩ := by rw [hcs]; exact hfe
  rw [← hcs] at hi hsp
  have hs := hsp.st
  have hlen : List.length cs = 2 := hs.len
  obtain ⟨env, s, henv, hsamp, hsl, hsd, hyl, hsv⟩ := main_sampler (d := 2) (by norm_num) hs hi kind hn (initial := 2 * 4) (by norm_num) hn1
  have hopt := main_sampler_optimised (d := 2) (by norm_num) hs hi (initial := 8) (by norm_num) (by omega) henv hsamp hsl hsd
  replace hsamp : boSample (callObjective i.inv ⟨cs, styblinskiTangValue cs⟩) env (startSampler i .new) n = (s, none) := hsamp
  have hne : s.configs ≠ [] := List.ne_nil_of_length_pos (by omega)
  have hdata : TrainingData 2 (s.configs.map Config.vector) s.ys := configs_data (by norm_num) hne (fun c hc => by rw [(hsd c hc).1, hlen]) hyl
  obtain ⟨gp, hfit, -, mu, sd, hrow, -, -⟩ := C99_unit (by rw [← hlen]; exact hi.kernel) hdata
  obtain ⟨l, hl1, hl2, hl3⟩ := hi.ice
  rw [hdraws] at hl1
  cases hl1
  obtain ⟨rows, hrows⟩ : ∃ rows, rows = draws.map Config.vector := ⟨_, rfl⟩
  have hrl : ∀ r ∈ rows, r.length = List.length cs := by
    rw [hrows]
    intro r hr
    obtain ⟨c, hc, rfl⟩ := List.mem_map.1 hr
    exact (hl3 c hc).1
  have hru : ∀ r ∈ rows, ∀ x ∈ r, 0 ≤ x ∧ x ≤ 1 := by
    rw [hrows]
    intro r hr
    obtain ⟨c, hc, rfl⟩ := List.mem_map.1 hr
    exact (hl3 c hc).2.1
  have hrne : rows ≠ [] := by rw [hrows]; simpa using hl2
  have hh := List.mem_of_getElem? hsp.at_e
  have hsel : convertHyperparameters (.name "x1") cs = .ok [hp] := by
    simp [convertHyperparameters, resolveItem, hsp.get]
  have hrow' : RowWise (List.length cs) gp.predict mu sd := by rw [hlen]; exact hrow
  obtain ⟨grid, tr, hgrid, hgl, hdt, hv, htc, htp, htn, htm, hroot⟩ := dt_root hs hsp.at_e hrow' hrl hrne hg N m hsel
  have heo : e ≠ o := by have := hsp.sum; omega
  have hposs : tr.possible = [other] := by
    rw [htp, possibleSplits]
    have hn1 := hsp.name
    have hn2 := hsp.other_name
    have he := hsp.at_e
    have ho := hsp.at_o
    have hsum := hsp.sum
    rw [hsp.eq] at he ho ⊢
    obtain ⟨rfl, rfl⟩ | ⟨rfl, rfl⟩ : (e = 0 ∧ o = 1) ∨ (e = 1 ∧ o = 0) := by omega
    · cases Option.some.inj he
      cases Option.some.inj ho
      simp [hn1, hn2]
    · cases Option.some.inj he
      cases Option.some.inj ho
      simp [hn1, hn2]
  have hlow : ∀ t, lowerPart o t (curves tr.root) = (below o t rows).map (curveOf cs [hp] mu sd grid) := by
    intro t
    rw [hroot, lowerPart, List.filter_map, below]
    congr 1
    exact List.filter_congr fun r hr => by simp only [Function.comp, feature_set hs hsp.at_e heo hg hgrid (hrl r hr)]
  have hupp : ∀ t, upperPart o t (curves tr.root) = (above o t rows).map (curveOf cs [hp] mu sd grid) := by
    intro t
    rw [hroot, upperPart, List.filter_map, above]
    congr 1
    exact List.filter_congr fun r hr => by simp only [Function.comp, feature_set hs hsp.at_e heo hg hgrid (hrl r hr)]
  have hfeat : ∀ f', IsFeature cs other f' ↔ f' = o := by
    intro f'
    constructor
    · rintro ⟨h, h1, h2⟩
      have e1 : (cs.map Hp.name)[f']? = some other.name := by rw [List.getElem?_map, h1, ← h2]; rfl
      have e2 : (cs.map Hp.name)[o]? = some other.name := by rw [List.getElem?_map, hsp.at_o]; rfl
      exact (List.getElem?_inj (List.getElem?_eq_some_iff.1 e1).1 hs.wf).1 (e1.trans e2.symm)
    · rintro rfl
      exact ⟨other, hsp.at_o, rfl⟩
  have hcand : ∀ a j h f', IsCandidate cs tr.possible N m (curves tr.root) a j h f' ↔ (a = 0 ∧ h = other ∧ f' = o) ∧ Admissible N m o rows j := by
    intro a j h f'
    rw [hposs]
    constructor
    · rintro ⟨h1, h2, h3, h4, h5, h6⟩
      obtain rfl : a = 0 := by
        by_contra ha
        rw [List.getElem?_eq_none (by simp; omega)] at h1
        cases h1
      obtain rfl : h = other := by simpa using h1.symm
      obtain rfl := (hfeat f').1 h2
      rw [hlow, List.length_map] at h5
      rw [hupp, List.length_map] at h6
      exact ⟨⟨rfl, rfl, rfl⟩, h3, h4, h5, h6⟩
    · rintro ⟨⟨rfl, rfl, rfl⟩, h3, h4, h5, h6⟩
      exact ⟨rfl, (hfeat _).2 rfl, h3, h4, by rw [hlow, List.length_map]; exact h5, by rw [hupp, List.length_map]; exact h6⟩
  have hcost : ∀ j, splitCost perAxis N (curves tr.root) o j = thresholdLoss sd N e o perAxis rows j := by
    intro j
    rw [splitCost, thresholdLoss, hlow, hupp, loss_rows (rows := below _ _ _) hs hsp.at_e hgrid fun r hr => hrl r (List.mem_of_mem_filter hr),
      loss_rows (rows := above _ _ _) hs hsp.at_e hgrid fun r hr => hrl r (List.mem_of_mem_filter hr)]
  obtain ⟨L, hL, hgreedy⟩ := C54_greedy_tree hv (d := 1) (by norm_num)
  obtain ⟨L', hL', -⟩ := partition_eq hv (d := 1) (by norm_num)
  rw [hL'] at hL
  obtain rfl := Except.ok.inj hL
  rw [htc, htn, htm] at hgreedy
  dsimp only at hgreedy
  have hstart : figure4 i kind n nCandidates perAxis N m g = (match L' with
      | [left, right] => (do
        let ax ← Show.on (regionPlot "green" (1 / 10) cs [hp] (perAxis ^ 1) left) Ax.new
        let ax ← Show.on (regionPlot "blue" (1 / 10) cs [hp] (perAxis ^ 1) right) ax
        Show.save "Figure 4.png" [ax]
        return ⟨{ tr with leaves := L' }, left, right⟩ : Show Figure4)
      | _ => Show.lift (.error .assertion)) g := by
    unfold figure4
    rw [Show.lift_bind hf]
    rw [hfcs]
    dsimp only
    rw [Show.lift_bind henv]
    dsimp only
    rw [Show.sampled_bind hsamp, Show.changed_bind hfit, Show.lift_bind (a := rows) (by rw [hdraws, hrows]; rfl), Show.lift_bind hdt,
      Show.changed_bind hL']
    dsimp only
    rw [show tr.cfg.selected = [hp] by rw [htc], show tr.cfg.numGrid = perAxis ^ 1 by rw [htc]]
    rcases L' with _ | ⟨l1, _ | ⟨l2, _ | ⟨l3, L3⟩⟩⟩ <;> rfl
  refine ⟨p, q, hp, other, e, o, s.configs, s.ys, gp, mu, sd, rows, by rw [← hcs]; exact hsp, hrows, hsl, by rw [hyl, hsl], by rw [← hcs]; exact hsd,
    by rw [hfcs]; exact hsv, hopt, hfit, hrow, ?_, ?_⟩
  · intro hno
    cases hgreedy with
    | leaf h1 h2 =>
      rw [hstart]
      rfl
    | branch h1 h2 h3 h4 h5 h6 h7 => exact absurd ((hcand _ _ _ _).1 h4.1).2 (hno _)
  · rintro ⟨j0, hj0⟩
    cases hgreedy with
    | leaf h1 h2 =>
      rcases h2 with h2 | h2 | h2
      · rw [hv.depth] at h2; norm_num at h2
      · have a1 := hj0.2.2.1
        have a2 := hj0.2.2.2
        have : (below o (threshold N j0) rows).length + (above o (threshold N j0) rows).length = rows.length := by
          unfold below above
          rw [List.length_eq_length_filter_add (l := rows) fun r => decide (r.getD o 0 ≤ threshold N j0)]
          congr 2
          exact List.filter_congr fun r _ => by rw [← decide_not, decide_eq_decide, not_le]
        rw [hroot, List.length_map] at h2
        omega
      · exact absurd ((hcand _ _ _ _).2 ⟨⟨rfl, rfl, rfl⟩, hj0⟩) (h2 _ _ _ _)
    | @branch _ l r Ll Lr a j h f' h1 h2 h3 h4 h5 h6 h7 =>
      obtain ⟨⟨ha, hh', hf'⟩, hadm⟩ := (hcand _ _ _ _).1 h4.1
      subst ha
      rw [hf'] at h4 h5
      rw [hh'] at h4 h5
      have hleaf : ∀ {x : Node ℝ} {Lx}, x.depth = tr.root.depth + 1 → Greedy cs tr.possible N m perAxis 1 x Lx → Lx = [x] ∧ RegionShape perAxis (List.length cs) x := by
        intro x Lx hx hgx
        cases hgx with
        | leaf h1 h2 => exact ⟨rfl, h1⟩
        | branch h1 h2 => rw [hx, hv.depth] at h2; norm_num at h2
      obtain ⟨rfl, hshl⟩ := hleaf h5.left_depth h6
      obtain ⟨rfl, hshr⟩ := hleaf h5.right_depth h7
      have hunit : ∀ rs : List (List ℝ), (∀ x ∈ rs, x ∈ rows) → UnitCurves (rs.map (curveOf cs [hp] mu sd grid)) := by
        intro rs hrs cv hcv mm hm' x hx
        obtain ⟨r', hr', rfl⟩ := List.mem_map.1 hcv
        obtain ⟨t, ht, rfl⟩ := List.mem_map.1 (show mm ∈ grid.map fun t => replaced cs [hp] t r' from hm')
        rw [hgrid] at ht
        obtain ⟨w, hw, rfl⟩ := List.mem_map.1 ht
        rw [replaced_one hs.wf hsp.at_e (hrl r' (hrs r' hr'))] at hx
        rcases List.mem_or_eq_of_mem_set hx with hx | rfl
        · exact hru r' (hrs r' hr') x hx
        · obtain ⟨jj, hj, rfl⟩ := List.getElem_of_mem hw
          rw [linspace_length] at hj
          obtain ⟨e1, e2, e3⟩ := linspace_fraction hj
          rw [List.getElem?_eq_getElem (by rw [linspace_length]; exact hj)] at e1
          rw [Option.some.inj e1]
          exact ⟨e2, e3⟩
      have hcr : curves r = (above o (threshold N j) rows).map (curveOf cs [hp] mu sd grid) := by rw [h5.right_curves]; exact hupp _
      have hcl : curves l = (below o (threshold N j) rows).map (curveOf cs [hp] mu sd grid) := by rw [h5.left_curves]; exact hlow _
      have hdecl : AllDeclared cs := fun h hm' => ⟨-5, 5, false, hs.declares hm'⟩
      have hax := newAxis_one (hp := hp) (Or.inl (hs.kind hp hh)) "Prediction"
      obtain ⟨lines1, d1, d2⟩ := C88_region hdecl hh hshr (by rw [hcr]; exact hunit _ fun x hx => List.mem_of_mem_filter hx) "green" (alpha := 1 / 10) (by norm_num) (by norm_num) hax
      obtain ⟨lines2, d3, d4⟩ := C88_region hdecl hh hshl (by rw [hcl]; exact hunit _ fun x hx => List.mem_of_mem_filter hx) "blue" (alpha := 1 / 10) (by norm_num) (by norm_num)
        (axis_again hax lines1)
      rw [hcr, List.forall₂_map_left_iff] at d2
      rw [hcl, List.forall₂_map_left_iff] at d4
      have e1 := forall₂_eq_map d2 fun r' hr' b hb => lineOf_sample hs hsp.at_e hgrid (hrl r' (List.mem_of_mem_filter hr')) hb
      have e2 := forall₂_eq_map d4 fun r' hr' b hb => lineOf_sample hs hsp.at_e hgrid (hrl r' (List.mem_of_mem_filter hr')) hb
      refine ⟨j, { tr with leaves := [r] ++ [l] }, r, l, (Ax.draw ⟨hp.name, "Prediction", false, false, some (-5, 5), none, []⟩ lines1).draw lines2, hadm, fun k hk => ?_, ?_, ?_, ?_, ?_⟩
      · have := h4.2 0 k other o ((hcand _ _ _ _).2 ⟨⟨rfl, rfl, rfl⟩, hk⟩)
        rw [hcost, hcost] at this
        exact ⟨this.1, fun h => ((this.2 h).resolve_left (lt_irrefl _)).2⟩
      · rw [hstart]
        dsimp only [List.cons_append, List.nil_append]
        rw [pow_one, Show.on_bind d1, Show.on_bind d3]
        rfl
      · rw [h5.right_conds, hv.conds, List.nil_append]
      · rw [h5.left_conds, hv.conds, List.nil_append]
      · rw [e1, e2]
        rfl


/-! ### figure_2 -/

/-- the function is symmetric in its two arguments, so the order of the hyperparameters does not matter -/
theorem call_two {cs : ConfigSpace ℝ} {p q hp other : Hp ℝ} {e o : Nat} (h : TwoSpace cs p q hp other e o) (inv : Hp ℝ → Val ℝ → ℝ) {a b : ℝ} (ha : -5 ≤ a ∧ a ≤ 5)
    (hb : -5 ≤ b ∧ b ≤ 5) : (BlackboxFn.mk cs (styblinskiTangValue cs)).call inv [(hp.name, .num a), (other.name, .num b)] = .ok (stTwo a b) := by
  have hs := h.st
  have hsum := h.sum
  have he := h.at_e
  have ho := h.at_o
  have hne : hp.name ≠ other.name := by rw [h.name, h.other_name]; decide
  have hmem : ∀ x ∈ cs, x = hp ∨ x = other := by
    intro x hx
    rw [h.eq] at hx he ho
    simp only [List.mem_cons, List.not_mem_nil, or_false] at hx
    obtain ⟨rfl, rfl⟩ | ⟨rfl, rfl⟩ : (e = 0 ∧ o = 1) ∨ (e = 1 ∧ o = 0) := by omega
    · cases Option.some.inj he
      cases Option.some.inj ho
      exact hx
    · cases Option.some.inj he
      cases Option.some.inj ho
      exact hx.symm
  have hhp := List.mem_of_getElem? he
  have hoth := List.mem_of_getElem? ho
  obtain ⟨config, c1, c2, c3⟩ := C11_legal inv (BlackboxFn.mk cs (styblinskiTangValue cs)) (kwargs := [(hp.name, .num a), (other.name, .num b)]) (by simpa using hne) (by
    refine ⟨fun x hx => ?_, fun x hx => ?_⟩
    · simp only [List.mem_cons, List.not_mem_nil, or_false] at hx
      rcases hx with rfl | rfl
      · exact ⟨hp, hhp, rfl⟩
      · exact ⟨other, hoth, rfl⟩
    · rcases hmem x hx with rfl | rfl
      · refine ⟨.num a, by simp, ?_⟩
        simp only [Hp.legal, hs.kind _ hhp]
        exact decide_eq_true ha
      · refine ⟨.num b, by simp, ?_⟩
        simp only [Hp.legal, hs.kind _ hoth]
        exact decide_eq_true hb)
  rw [c1]
  dsimp only
  have hget : ∀ n v, (n, v) ∈ [(hp.name, Val.num a), (other.name, Val.num b)] → config.get? n = some v := fun n v hm =>
    get?_of_mem (by rw [c2]; exact hs.wf) ((c3 _ _).1 hm) config.vector
  have h1 := hget hp.name (.num a) (by simp)
  have h2 := hget other.name (.num b) (by simp)
  clear c1 c2 c3 hget
  obtain rfl := h.eq
  obtain ⟨rfl, rfl⟩ | ⟨rfl, rfl⟩ : (e = 0 ∧ o = 1) ∨ (e = 1 ∧ o = 0) := by omega
  · cases Option.some.inj he
    cases Option.some.inj ho
    rw [C97_styblinski_tang [p, q] config ![a, b] fun i => by
      fin_cases i
      · exact h1
      · exact h2]
    congr 1
    rw [stTwo, show (∑ i : Fin (List.length [p, q]), (![a, b] i ^ 4 - 16 * ![a, b] i ^ 2 + 5 * ![a, b] i)) = ∑ i : Fin 2, (![a, b] i ^ 4 - 16 * ![a, b] i ^ 2 + 5 * ![a, b] i) from rfl,
      Fin.sum_univ_two]
    simp
    ring
  · cases Option.some.inj he
    cases Option.some.inj ho
    rw [C97_styblinski_tang [p, q] config ![b, a] fun i => by
      fin_cases i
      · exact h2
      · exact h1]
    congr 1
    rw [stTwo, show (∑ i : Fin (List.length [p, q]), (![b, a] i ^ 4 - 16 * ![b, a] i ^ 2 + 5 * ![b, a] i)) = ∑ i : Fin 2, (![b, a] i ^ 4 - 16 * ![b, a] i ^ 2 + 5 * ![b, a] i) from rfl,
      Fin.sum_univ_two]
    simp
    ring

theorem evenAxis_within {n : Nat} {l : List ℝ} (hl : EvenAxis (-5) 5 false n l) : ∀ a ∈ l, -5 ≤ a ∧ a ≤ 5 := by
  intro a ha
  obtain ⟨j, hj, rfl⟩ := List.getElem_of_mem ha
  have h0 := hl.head
  have h9 := hl.last
  have hlen := hl.length
  have hpw := List.pairwise_iff_getElem.1 hl.increasing
  obtain ⟨l0, e0⟩ := List.getElem?_eq_some_iff.1 h0
  obtain ⟨l9, e9⟩ := List.getElem?_eq_some_iff.1 h9
  constructor
  · rcases Nat.eq_zero_or_pos j with rfl | hj0
    · exact e0.ge
    · have := hpw 0 j l0 hj hj0
      rw [e0] at this; exact this.le
  · rcases Nat.lt_or_ge j (n - 1) with hj0 | hj0
    · have := hpw j (n - 1) hj l9 hj0
      rw [e9] at this; exact this.le
    · obtain rfl : j = n - 1 := by omega
      exact e9.le

/-- the line on which `x2` is `v` (hyperparameter number `e` is `x1`), as a degenerate box -/
def lineBox (color : String) (e : Nat) (v : ℝ) : Shape ℝ := if e = 0 then .box color (-5) 5 v v else .box color v v (-5) 5

/-- one ICE curve, its function and its place in the large axis -/
theorem ice_panel {cs : ConfigSpace ℝ} {p q hp other : Hp ℝ} {e o : Nat} (h : TwoSpace cs p q hp other e o) (inv : Hp ℝ → Val ℝ → ℝ) {perPlot : Nat} (hpp : 2 ≤ perPlot)
    {mu sd : List ℝ → ℝ} (hsd : ∀ r, 0 ≤ sd r) {P : Nat} (hP : 2 ≤ P) {grid : List (List ℝ)} (hgrid : grid = (linspace 0 1 P).map fun t => [t]) {predict : Predict ℝ}
    {samples : List (List ℝ)} (hrl : ∀ r ∈ samples, r.length = List.length cs) (hru : ∀ r ∈ samples, ∀ x ∈ r, 0 ≤ x ∧ x ≤ 1) {dat : IceData ℝ}
    (hcalc : iceCalc ⟨cs, [hp], samples, samples.length, P, P ^ 1, false, predict⟩ grid = .ok dat)
    (hdx : dat.x = samples.map fun r => (curveOf cs [hp] mu sd grid r).1) {k : Nat} {c : Config ℝ} (hk : samples[k]? = some c.vector) (hc : DrawnFrom cs c)
    (lineColor gradientColor : String) {large : Ax ℝ} {shapes : List (Shape ℝ)} (hlarge : AxisTwo p q (-5) 5 false (-5) 5 false large shapes) (g : Gallery) :
    ∃ v xs bands, c.get? "x2" = some (.num v) ∧ EvenAxis (-5) 5 false perPlot xs ∧
      ShowsConfidence lineColor gradientColor (3 / 2) (naturalGrid (-5) 5 false P) (iceValues mu e P c.vector) (iceValues sd e P c.vector) bands ∧
      icePanel ⟨cs, styblinskiTangValue cs⟩ inv perPlot lineColor gradientColor ⟨cs, [hp], (curveOf cs [hp] mu sd grid c.vector).1,
        (curveOf cs [hp] mu sd grid c.vector).2.1, (curveOf cs [hp] mu sd grid c.vector).2.2⟩ large g =
        (g, .ok (large.draw [lineBox lineColor e v], ⟨"x1", "Prediction", false, false, some (-5, 5), some (-75, 150),
          [.line "black" xs (xs.map fun t => stTwo t v), .line "red" (naturalGrid (-5) 5 false P) (iceValues mu e P c.vector)] ++ bands⟩)) := by
  have hs := h.st
  have hhp := List.mem_of_getElem? h.at_e
  have hoth := List.mem_of_getElem? h.at_o
  have hlen : List.length cs = 2 := hs.len
  have hsum := h.sum
  obtain ⟨r, hr⟩ : ∃ r, r = c.vector := ⟨_, rfl⟩
  rw [← hr] at hk ⊢
  have hrm := List.mem_of_getElem? hk
  have hdecl : AllDeclared cs := fun h' hm' => ⟨-5, 5, false, hs.declares hm'⟩
  obtain ⟨cfg, hcfg⟩ : ∃ cfg : IceCfg ℝ, cfg = ⟨cs, [hp], samples, samples.length, P, P ^ 1, false, predict⟩ := ⟨_, rfl⟩
  have hv : ValidCfg cfg := by rw [hcfg]; exact ⟨hs.wf, by simpa using hhp, by simp, by simp, hrl, rfl, rfl⟩
  rw [← hcfg] at hcalc
  obtain ⟨out, hout, hol, hall⟩ := C47_implied_of_ice hv (by rw [hcfg]; exact hdecl) (by rw [hcfg]; exact hru)
    (by rw [hcfg]; intro h' hm' l u g' hk'; rw [hs.kind h' hm'] at hk'; cases hk') (grid := grid) (by rw [hcfg, hgrid]; exact gridPoints_one P) (by rw [hcfg]; exact hP) hcalc
    (s := k) (x := (curveOf cs [hp] mu sd grid r).1) (r := r) (by rw [hdx, List.getElem?_map, hk]; rfl) (by rw [hcfg]; exact hk)
    (curveOf cs [hp] mu sd grid r).2.1 (curveOf cs [hp] mu sd grid r).2.2
  rw [hcfg] at hout hol hall
  dsimp only at hout hol hall
  have hfeat : ∀ f', IsFeature cs hp f' ↔ f' = e := by
    intro f'
    constructor
    · rintro ⟨h', h1, h2⟩
      have e1 : (cs.map Hp.name)[f']? = some hp.name := by rw [List.getElem?_map, h1, ← h2]; rfl
      have e2 : (cs.map Hp.name)[e]? = some hp.name := by rw [List.getElem?_map, h.at_e]; rfl
      exact (List.getElem?_inj (List.getElem?_eq_some_iff.1 e1).1 hs.wf).1 (e1.trans e2.symm)
    · rintro rfl
      exact ⟨hp, h.at_e, rfl⟩
  obtain ⟨o1, ho1, hn1, hk1, -⟩ := hall e hp _ _ _ h.at_e (.inl (hs.kind hp hhp))
  obtain ⟨o2, ho2, hn2, -, hk2⟩ := hall o other _ _ _ h.at_o (.inl (hs.kind other hoth))
  replace hk1 := hk1 ⟨hp, by simp, (hfeat e).2 rfl⟩
  obtain ⟨x, hx, hk3⟩ := hk2 (by
    intro q' hq' hf'
    rw [List.mem_singleton.1 hq', hfeat] at hf'
    omega)
  obtain rfl : o1 = hp := by
    cases o1; cases hp; simp only at hn1 hk1; rw [hn1, hk1]
  obtain ⟨v, hv'⟩ : ∃ v, v = interpolate (-5) 5 false x := ⟨_, rfl⟩
  rw [← hv'] at hk3
  have ho2' : o2 = ⟨"x2", .constant (.num v)⟩ := by
    cases o2; simp only at hn2 hk3; rw [hn2, hk3, h.other_name]
  have hcv : c.get? "x2" = some (.num v) := by
    rw [← h.other_name, hv']
    exact hc.2.2.2 o other _ _ _ x h.at_o (hs.kind other hoth) (by rw [← hr]; exact hx)
  have hx01 := hru r hrm x (List.mem_of_getElem? hx)
  have hvb : -5 ≤ v ∧ v ≤ 5 := by
    rw [hv']
    simp only [interpolate, Bool.false_eq_true, if_false]
    constructor <;> nlinarith [hx01.1, hx01.2]
  have hkind := hs.kind o1 hhp
  have hvary : varying out = [o1] := by
    obtain ⟨u0, u1, hu⟩ := List.length_eq_two.1 (hol.trans hlen)
    rw [hu] at ho1 ho2 ⊢
    obtain ⟨rfl, rfl⟩ | ⟨rfl, rfl⟩ : (e = 0 ∧ o = 1) ∨ (e = 1 ∧ o = 0) := by omega
    · cases Option.some.inj ho1
      cases Option.some.inj ho2
      simp [varying, hkind, hk3]
    · cases Option.some.inj ho1
      cases Option.some.inj ho2
      simp [varying, hkind, hk3]
  have haxY : checkAndSetAxis [o1] true "Prediction" (Ax.new.setYlim (-75, 150)) = (⟨o1.name, "Prediction", false, false, some (-5, 5), some (-75, 150), []⟩, .ok ()) := by
    have hnum : o1.numerical? = some (-5, 5, false) := by simp [Hp.numerical?, hkind]
    simp [checkAndSetAxis, Ax.new, Ax.setYlim, Ax.boundX, hnum]
  obtain ⟨xs, consts, x1, ⟨x2, x2'⟩, x3, -⟩ := C73_one hvary (l := -5) (u := 5) (g := false) ⟨.inl hkind, by norm_num, by simp⟩ hpp
    ((BlackboxFn.mk cs (styblinskiTangValue cs)).call inv) "black" haxY
  have hnames : (out.map Hp.name) = [p.name, q.name] := by
    obtain ⟨u0, u1, hu⟩ := List.length_eq_two.1 (hol.trans hlen)
    have he := h.at_e
    have ho := h.at_o
    rw [h.eq] at he ho
    rw [hu] at ho1 ho2 ⊢
    obtain ⟨rfl, rfl⟩ | ⟨rfl, rfl⟩ : (e = 0 ∧ o = 1) ∨ (e = 1 ∧ o = 0) := by omega
    · cases Option.some.inj ho1
      cases Option.some.inj ho2
      cases Option.some.inj he
      cases Option.some.inj ho
      simp [hn2]
    · cases Option.some.inj ho1
      cases Option.some.inj ho2
      cases Option.some.inj he
      cases Option.some.inj ho
      simp [hn2]
  have hnodup : [p.name, q.name].Nodup := by
    have := hs.wf
    rw [h.eq] at this
    exact this
  have hconst : consts = [("x2", .num v)] := by
    have hall' : ∀ y ∈ consts, y = ("x2", .num v) := by
      rintro ⟨nm, w⟩ hm
      have := (x2' nm w).1 hm
      have hnot : (⟨nm, .constant w⟩ : Hp ℝ) ≠ o1 := fun h' => by rw [← h'] at hkind; cases hkind
      obtain ⟨u0, u1, hu⟩ := List.length_eq_two.1 (hol.trans hlen)
      rw [hu] at ho1 ho2 this
      simp only [List.mem_cons, List.not_mem_nil, or_false] at this
      obtain ⟨rfl, rfl⟩ | ⟨rfl, rfl⟩ : (e = 0 ∧ o = 1) ∨ (e = 1 ∧ o = 0) := by omega
      · cases Option.some.inj ho1
        cases Option.some.inj ho2
        have := this.resolve_left hnot
        rw [ho2'] at this
        cases this
        rfl
      · cases Option.some.inj ho1
        cases Option.some.inj ho2
        have := this.resolve_right hnot
        rw [ho2'] at this
        cases this
        rfl
    have hin : ("x2", .num v) ∈ consts := (x2' _ _).2 (by rw [← ho2']; exact List.mem_of_getElem? ho2)
    have hnd : (consts.map (·.1)).Nodup := x2.nodup (by rw [hnames]; exact hnodup)
    rcases consts with _ | ⟨a, _ | ⟨b, t⟩⟩
    · cases hin
    · rw [hall' a (by simp)]
    · rw [hall' a (by simp), hall' b (by simp)] at hnd
      simp at hnd
  rw [hconst] at x3
  have d1 := x3 (fun t => stTwo t v) fun a ha => by
    rw [← h.other_name]
    exact call_two h inv (evenAxis_within x1 a ha) hvb
  have hgl : grid.length = P := by rw [hgrid, List.length_map, linspace_length]
  have hvalid : ValidCurve ⟨cs, [o1], (curveOf cs [o1] mu sd grid r).1, (curveOf cs [o1] mu sd grid r).2.1, (curveOf cs [o1] mu sd grid r).2.2⟩ := by
    refine ⟨hdecl, fun row hrow => ?_, by simp [curveOf], by simp [curveOf], by simpa using hhp⟩
    obtain ⟨t, ht, rfl⟩ := List.mem_map.1 (show row ∈ grid.map fun t => replaced cs [o1] t r from hrow)
    rw [hgrid] at ht
    obtain ⟨w, hw, rfl⟩ := List.mem_map.1 ht
    rw [replaced_one hs.wf h.at_e (hrl r hrm)]
    refine ⟨by rw [List.length_set]; exact hrl r hrm, fun y hy => ?_⟩
    rcases List.mem_or_eq_of_mem_set hy with hy | rfl
    · exact hru r hrm y hy
    · obtain ⟨jj, hj, rfl⟩ := List.getElem_of_mem hw
      rw [linspace_length] at hj
      obtain ⟨e1, e2, e3⟩ := linspace_fraction hj
      rw [List.getElem?_eq_getElem (by rw [linspace_length]; exact hj)] at e1
      rw [Option.some.inj e1]
      exact ⟨e2, e3⟩
  obtain ⟨ax0, hax0⟩ : ∃ ax0 : Ax ℝ, ax0 = ⟨o1.name, "Prediction", false, false, some (-5, 5), some (-75, 150), []⟩ := ⟨_, rfl⟩
  rw [← hax0] at haxY d1
  obtain ⟨L1, hL1⟩ : ∃ L : Shape ℝ, L = .line "black" xs (xs.map fun t => stTwo t v) := ⟨_, rfl⟩
  rw [← hL1] at d1
  have hnat : ∀ ys, List.Forall₂ (NaturalAt cs o1) (curveOf cs [o1] mu sd grid r).1 ys → ys = naturalGrid (-5) 5 false P := by
    intro ys hys
    have := lineOf_sample (color := "red") hs h.at_e hgrid (hrl r hrm) (mu := mu) (sd := sd) ⟨ys, rfl, hys⟩
    unfold sampleLine at this
    injection this
  have hyv : (curveOf cs [o1] mu sd grid r).2.1 = iceValues mu e P r := curve_values hs.wf h.at_e hgrid (hrl r hrm)
  obtain ⟨ys, hys, d2⟩ := C83_one hvalid rfl (axis_again haxY [L1]) "red"
  obtain ⟨L2, hL2⟩ : ∃ L : Shape ℝ, L = .line "red" (naturalGrid (-5) 5 false P) (iceValues mu e P r) := ⟨_, rfl⟩
  dsimp only at hys d2
  rw [hnat ys hys] at d2
  have d2' : curveValues "red" ⟨cs, [o1], (curveOf cs [o1] mu sd grid r).1, (curveOf cs [o1] mu sd grid r).2.1, (curveOf cs [o1] mu sd grid r).2.2⟩ (ax0.draw [L1]) =
      (ax0.draw [L1, L2], .ok ()) := by
    rw [d2, hL2, ← hyv, Ax.draw_draw]
    rfl
  obtain ⟨ys', sds, bands, hys', hsds, d3, d4⟩ := C84_one hvalid (by
    intro w hw
    obtain ⟨t, -, rfl⟩ := List.mem_map.1 (show w ∈ grid.map fun t => sd (replaced cs [o1] t r) ^ 2 from hw)
    positivity) rfl (axis_again haxY [L1, L2]) lineColor gradientColor (maxSigma := 3 / 2) (by norm_num)
  have hsdv : sds = iceValues sd e P r := by
    have := forall₂_eq_map (f := Real.sqrt) hsds fun a _ b hb => by rw [← hb.2, Real.sqrt_mul_self hb.1]
    rw [this]
    refine eq_range_map (by simp [curveOf, hgl]) fun j hj => ?_
    have hgj : grid[j]? = some [gridValue P j] := by
      rw [hgrid, List.getElem?_map, (linspace_fraction hj).1]; rfl
    simp only [curveOf, List.getElem?_map, hgj, Option.map_some, replaced_one hs.wf h.at_e (hrl r hrm), Real.sqrt_sq (hsd _)]
  dsimp only at hys' d4
  rw [hnat ys' hys', hyv, hsdv] at d4
  have d5 : plotConfigSpace out .none lineColor large = (large.draw [lineBox lineColor e v], .ok ()) := by
    unfold plotConfigSpace
    rw [getHyperparameters, Plot.lift_bind_ok]
    obtain ⟨u0, u1, hu⟩ := List.length_eq_two.1 (hol.trans hlen)
    rw [hu] at ho1 ho2 hnames ⊢
    have hnm : u0.name = p.name ∧ u1.name = q.name := by simpa using hnames
    have hchk : checkAndSetAxis [u0, u1] false "Prediction" large = (large, .ok ()) := by
      rw [hlarge]
      simp [checkAndSetAxis, Ax.boundX, Ax.boundY, hnm.1, hnm.2]
    rw [Plot.bind_ok hchk]
    have b1 : boxSide o1 = .ok (-5, 5) := by simp [boxSide, Hp.numerical?, hkind]
    have b2 : boxSide o2 = .ok (v, v) := by rw [ho2']; rfl
    obtain ⟨rfl, rfl⟩ | ⟨rfl, rfl⟩ : (e = 0 ∧ o = 1) ∨ (e = 1 ∧ o = 0) := by omega
    · cases Option.some.inj ho1
      cases Option.some.inj ho2
      simp only [drawSpace]
      rw [b1, Plot.lift_bind_ok, b2, Plot.lift_bind_ok]
      rfl
    · cases Option.some.inj ho1
      cases Option.some.inj ho2
      simp only [drawSpace]
      rw [b2, Plot.lift_bind_ok, b1, Plot.lift_bind_ok]
      rfl
  refine ⟨v, xs, bands, hcv, x1, d4, ?_⟩
  unfold icePanel
  rw [Show.lift_bind hout, Show.on_bind d1, Show.on_bind d2', Show.on_bind d3, Show.on_bind d5, hax0, hL1, hL2, h.name]
  rfl

/-- curve number `k` of an ICE object, and what is stored afterwards -/
theorem iceGet_nat {st : IceState ℝ} {dat : IceData ℝ} (hs : Stored st dat ∨ (Fresh st ∧ calcNow st = .ok dat)) {samples : List (List ℝ)} {cv : List ℝ → Curve ℝ}
    (hx : dat.x = samples.map fun r => (cv r).1) (hy : dat.y = samples.map fun r => (cv r).2.1) (hv : dat.v = samples.map fun r => (cv r).2.2) (k : Nat) :
    (∀ r, samples[k]? = some r → (iceGet st k).2 = .ok ⟨st.cfg.space, st.cfg.selected, (cv r).1, (cv r).2.1, (cv r).2.2⟩) ∧
    (samples.length ≤ k → (iceGet st k).2 = .error .index) ∧ Stored (iceGet st k).1 dat ∧ (iceGet st k).1.cfg = st.cfg := by
  obtain ⟨h1, h2⟩ := C47_curve hs (n := samples.length) (by rw [hx, List.length_map]) (by rw [hy, List.length_map]) (by rw [hv, List.length_map]) k
  refine ⟨fun r hr => ?_, fun hk => h2 (by omega), ?_⟩
  · obtain ⟨x, y, v, e1, e2, e3, e4⟩ := h1 k (List.getElem?_eq_some_iff.1 hr).1 (.inl rfl)
    rw [hx, List.getElem?_map, hr] at e1
    rw [hy, List.getElem?_map, hr] at e2
    rw [hv, List.getElem?_map, hr] at e3
    rw [e4, ← Option.some.inj e1, ← Option.some.inj e2, ← Option.some.inj e3]
  · obtain ⟨s1, hr1, hs1, hc1⟩ : ∃ s1, readX st = (s1, .ok dat.x) ∧ Stored s1 dat ∧ s1.cfg = st.cfg := by
      rcases hs with hs | ⟨hf, hc⟩
      · exact ⟨st, (reads_of_stored hs).1, hs, rfl⟩
      · obtain ⟨h1, h2, h3⟩ := (iceCalculate_eq st).1 dat hc
        exact ⟨(iceCalculate st).1, by rw [(reads_of_fresh hf).1, h1]; rfl, h2, h3⟩
    obtain ⟨_, hr2, hr3⟩ := reads_of_stored hs1
    have : (iceGet st k).1 = s1 := by
      unfold iceGet
      rw [hr1]
      dsimp only
      rw [hr2]
      dsimp only
      rw [hr3]
      cases npIndex dat.x k with
      | error e => rfl
      | ok x =>
        cases npIndex dat.y k with
        | error e => rfl
        | ok y => cases hv' : npIndex dat.v k <;> simp [hv']
    rw [this]
    exact ⟨hs1, hc1⟩

/-- a curve of figure 2: `ax` shows over `x1` the function at the value that the configuration `c` has for `x2` (black), the predictions with the same value (red) and their
bands, between the vertical limits -75 and 150; `box` is its place in the square. -/
def ShowsCurve (e perPlot P : Nat) (mu sd : List ℝ → ℝ) (lineColor gradientColor : String) (c : Config ℝ) (ax : Ax ℝ) (box : Shape ℝ) : Prop :=
  ∃ v xs bands, c.get? "x2" = some (.num v) ∧ EvenAxis (-5) 5 false perPlot xs ∧ box = lineBox lineColor e v ∧
    ShowsConfidence lineColor gradientColor (3 / 2) (naturalGrid (-5) 5 false P) (iceValues mu e P c.vector) (iceValues sd e P c.vector) bands ∧
    ax = ⟨"x1", "Prediction", false, false, some (-5, 5), some (-75, 150),
      [.line "black" xs (xs.map fun t => stTwo t v), .line "red" (naturalGrid (-5) 5 false P) (iceValues mu e P c.vector)] ++ bands⟩

/-- **C116** `figure_2` shows two ICE curves of the surrogate of the sampler, which is fitted to all `n` evaluated points, not only to those before the last one. If there are
not more than `second` (20) points an IndexError is raised and nothing is saved. -/
theorem C116_figure2 {i : MainInput S} {f : BlackboxFn ℝ} (hf : forNDimensions i.order (-5) 5 false styblinskiTangValue ((2 : Nat) : ℝ) none none = .ok f)
    (hi : i.Good f.cs) (argsort : List ℝ → List Nat) (tau : ℝ) {n nCandidates : Int} (hn1 : 1 ≤ n) (hn : 2 ≤ nCandidates) {perLarge perPlot : Nat} (hpl : 2 ≤ perLarge)
    (hpp : 2 ≤ perPlot) {P : Nat} (hP : 2 ≤ P) (first second : Nat) (g : Gallery) :
    ∃ (p q hp other : Hp ℝ) (e o : Nat) (s : BOState (Config ℝ) ℝ GpSurrogate S) (mu sd : List ℝ → ℝ),
      TwoSpace f.cs p q hp other e o ∧ s.configs.length = n.toNat ∧ s.ys.length = n.toNat ∧ (∀ c ∈ s.configs, DrawnFrom f.cs c) ∧
      (∀ (j : Nat) c y, s.configs[j]? = some c → s.ys[j]? = some y → f.value c = .ok y) ∧
      (loadCache i.ofVec i.file = [] → OptimisedBy 2 i (.lcb tau) 5 nCandidates.toNat s.configs s.ys) ∧
      GpSurrogate.new.fit i.choose (s.configs.map Config.vector) s.ys = (s.extra.model, .ok ()) ∧ RowWise 2 s.extra.model.predict mu sd ∧
      (n.toNat ≤ first ∨ n.toNat ≤ second → figure2 i argsort (.lcb tau) n nCandidates perLarge perPlot P first second g = (g, .error .index)) ∧
      (∀ c c', s.configs[first]? = some c → s.configs[second]? = some c' → ∃ xs ys us vs large ax1 ax2 box1 box2,
        figure2 i argsort (.lcb tau) n nCandidates perLarge perPlot P first second g = (⟨g.count, saveFig g.files "Figure 2.png" [large, ax1, ax2]⟩, .ok s) ∧
        EvenAxis (-5) 5 false perLarge xs ∧ EvenAxis (-5) 5 false perLarge ys ∧ ReadsAs p.name s.configs us ∧ ReadsAs q.name s.configs vs ∧
        AxisTwo p q (-5) 5 false (-5) 5 false large [.mesh xs ys (ys.map fun b => xs.map fun a => stTwo a b), .points "red" us vs, box1, box2] ∧
        ShowsCurve e perPlot P mu sd "red" "lightsalmon" c ax1 box1 ∧ ShowsCurve e perPlot P mu sd "green" "lightgreen" c' ax2 box2) := by
  obtain ⟨hfe, p, q, hp, other, e, o, hsp⟩ := two_space hi.order hf
  obtain ⟨cs, hcs⟩ : ∃ cs, cs = f.cs := ⟨_, rfl⟩
  have hfcs : f = ⟨cs, styblinskiTangValue cs⟩ := by rw [hcs]; exact hfe
  rw [← hcs] at hi hsp
  have hs := hsp.st
  have hlen : List.length cs = 2 := hs.len
  have hhp := List.mem_of_getElem? hsp.at_e
  have hstart : IntroInv cs (callObjective i.inv ⟨cs, styblinskiTangValue cs⟩) (startSampler i .new) := by
    refine ⟨⟨by simp [startSampler, samplerInit], rfl⟩, ⟨by simp [HashOld, startSampler, samplerInit], rfl⟩, rfl, fun q hq => ?_, fun q hq => (hi.cache q hq).1⟩
    obtain ⟨a, b⟩ := hi.cache q hq
    have := (objective_drawn hs i.inv a).1
    rw [b] at this
    exact Except.ok.inj this
  obtain ⟨s, new, hsamp, hinv, hcfgs, hnew, hfit⟩ := intro_sample (d := 2) (by norm_num) hs hi tau hn (initial := 5) (by norm_num) hstart hn1
  have hsl : s.configs.length = n.toNat := by rw [hcfgs, ← hnew]; simp [startSampler, samplerInit]
  have hsd := hinv.good.configs
  have hal : s.ys = s.configs.map (callObjective i.inv ⟨cs, styblinskiTangValue cs⟩).value := hinv.aligned
  have hyl : s.ys.length = s.configs.length := by rw [hal, List.length_map]
  have hne : s.configs ≠ [] := List.ne_nil_of_length_pos (by omega)
  have hdata : TrainingData 2 (s.configs.map Config.vector) s.ys := configs_data (by norm_num) hne (fun c hc => by rw [(hsd c hc).1, hlen]) hyl
  obtain ⟨gp, hfit', -, mu, sd, hrow, hsd0, -⟩ := C99_unit (by rw [← hlen]; exact hi.kernel) hdata
  rw [hfit] at hfit'
  obtain rfl : s.extra.model = gp := (Prod.mk.inj hfit').1
  have hrow' : RowWise (List.length cs) s.extra.model.predict mu sd := by rw [hlen]; exact hrow
  obtain ⟨samples, hsm⟩ : ∃ x, x = s.configs.map Config.vector := ⟨_, rfl⟩
  have hrl : ∀ r ∈ samples, r.length = List.length cs := by
    rw [hsm]
    intro r hr
    obtain ⟨c, hc, rfl⟩ := List.mem_map.1 hr
    exact (hsd c hc).1
  have hru : ∀ r ∈ samples, ∀ x ∈ r, 0 ≤ x ∧ x ≤ 1 := by
    rw [hsm]
    intro r hr
    obtain ⟨c, hc, rfl⟩ := List.mem_map.1 hr
    exact (hsd c hc).2.1
  have hsne : samples ≠ [] := by rw [hsm]; simpa using hne
  obtain ⟨grid, dat, hgr, hgl, hfull, hcalc, hdx, hdy, hdv⟩ := ice_curves (selected := [hp]) hs.wf (by simpa using hhp) (by simp) (by simp) hrl hsne (by omega : 1 ≤ P) hrow'
  rw [List.length_singleton] at hcalc
  obtain ⟨cfg, hcfg⟩ : ∃ c : IceCfg ℝ, c = ⟨cs, [hp], samples, samples.length, P, P ^ 1, false, s.extra.model.predict⟩ := ⟨_, rfl⟩
  have hgrid : grid = (linspace 0 1 P).map fun t => [t] := by
    rw [List.length_singleton, gridPoints_one] at hgr
    exact (Except.ok.inj hgr).symm
  rw [← hcfg] at hcalc
  have hcalc' : iceCalc cfg grid = .ok dat := by rw [← calcNow_init cfg (by rw [hcfg]; exact hgr)]; exact hcalc
  have hsel : convertHyperparameters (.name "x1") cs = .ok [hp] := by
    simp [convertHyperparameters, resolveItem, hsp.get]
  have hinit : algorithmInit cs s.extra.model.predict (.name "x1") samples P = .ok cfg := by rw [algorithmInit, hsel, hcfg]; rfl
  obtain ⟨g1, g2, g3, g4⟩ := iceGet_nat (st := iceInit cfg) (dat := dat) (.inr ⟨fresh_init cfg, hcalc⟩) hdx hdy hdv first
  obtain ⟨g5, g6, -, -⟩ := iceGet_nat (st := (iceGet (iceInit cfg) first).1) (dat := dat) (.inl g3) hdx hdy hdv second
  rw [g4] at g5
  have hpm : p ∈ cs := by rw [hsp.eq]; simp
  have hqm : q ∈ cs := by rw [hsp.eq]; simp
  obtain ⟨xs, ys, a0, f1, f2, f3, f4⟩ := function_figure (p := p) (q := q) (by rw [← hsp.eq]; exact hs) i.inv hpl "black"
  rw [← hsp.eq] at f1
  obtain ⟨us, hus⟩ := readsAs_drawn hs hpm hsd
  obtain ⟨vs, hvs⟩ := readsAs_drawn hs hqm hsd
  have hax := newAxis_two (.inl (hs.kind p hpm)) (.inl (hs.kind q hqm)) "Prediction"
  obtain ⟨mesh, hmesh⟩ : ∃ m : Shape ℝ, m = .mesh xs ys (ys.map fun b => xs.map fun a => stTwo a b) := ⟨_, rfl⟩
  rw [← hmesh] at f4
  obtain ⟨a1, p1, p2⟩ : ∃ ax', samplerPlot argsort "red" cs .none s a0 = (ax', .ok ()) ∧ AxisTwo p q (-5) 5 false (-5) 5 false ax' [mesh, .points "red" us vs] := by
    have := axis_again hax [mesh]
    have e : (⟨p.name, q.name, false, false, some (-5, 5), some (-5, 5), []⟩ : Ax ℝ).draw [mesh] = a0 := by rw [f4]; rfl
    rw [e] at this
    refine ⟨_, C86_two argsort (by rw [hsp.eq]; rfl) hne hus hvs "red" this, ?_⟩
    rw [f4]; rfl
  have henv : gpSampler i.choose (.lcb tau) true 5 (cs.map Hp.name) i.drawer i.acqDrawer nCandidates = .ok (introEnv i tau cs 5 nCandidates, .new) :=
    gpSampler_ok i.choose (.inl rfl) 5 _ i.drawer i.acqDrawer nCandidates
  have hrun : figure2 i argsort (.lcb tau) n nCandidates perLarge perPlot P first second g = (do
      let curve1 ← Show.lift (iceGet (iceInit cfg) first).2
      let curve2 ← Show.lift (iceGet (iceGet (iceInit cfg) first).1 second).2
      let (large, ax1) ← icePanel ⟨cs, styblinskiTangValue cs⟩ i.inv perPlot "red" "lightsalmon" curve1 a1
      let (large, ax2) ← icePanel ⟨cs, styblinskiTangValue cs⟩ i.inv perPlot "green" "lightgreen" curve2 large
      Show.save "Figure 2.png" [large, ax1, ax2]
      return s : Show (BOState (Config ℝ) ℝ GpSurrogate S)) g := by
    unfold figure2
    rw [Show.lift_bind hf]
    rw [hfcs]
    dsimp only
    rw [Show.lift_bind henv]
    dsimp only
    rw [Show.on_bind f1, Show.sampled_bind hsamp, Show.on_bind p1, Show.lift_bind (a := cfg) (by rw [← hsm]; exact hinit)]
  have hopt := main_sampler_optimised (d := 2) (by norm_num) hs hi (initial := 5) (by norm_num) (by omega) henv hsamp hsl hsd
  refine ⟨p, q, hp, other, e, o, s, mu, sd, by rw [← hcs]; exact hsp, hsl, by rw [hyl, hsl], by rw [← hcs]; exact hsd, ?_, hopt, hfit, hrow, ?_, ?_⟩
  · intro j c y hc hy
    rw [hal, List.getElem?_map, hc] at hy
    rw [hfcs]
    exact (objective_drawn hs i.inv (hsd c (List.mem_of_getElem? hc))).1.trans (congrArg _ (Option.some.inj hy))
  · intro hout
    rw [hrun]
    have hsl' : samples.length = n.toNat := by rw [hsm, List.length_map, hsl]
    by_cases h1 : n.toNat ≤ first
    · rw [g2 (by omega)]
      rfl
    · obtain ⟨r, hr⟩ : ∃ r, samples[first]? = some r := ⟨_, List.getElem?_eq_getElem (by omega)⟩
      rw [Show.lift_bind (g1 r hr), g6 (by omega)]
      rfl
  · intro c c' hc hc'
    have hk : samples[first]? = some c.vector := by rw [hsm, List.getElem?_map, hc]; rfl
    have hk' : samples[second]? = some c'.vector := by rw [hsm, List.getElem?_map, hc']; rfl
    rw [hcfg] at hcalc'
    obtain ⟨v, zs, bands, k1, k2, k3, k4⟩ := ice_panel hsp i.inv hpp hsd0 hP hgrid hrl hru hcalc' hdx hk (hsd c (List.mem_of_getElem? hc)) "red" "lightsalmon" p2 g
    obtain ⟨v', zs', bands', l1, l2, l3, l4⟩ := ice_panel (large := a1.draw [lineBox "red" e v]) (shapes := [mesh, .points "red" us vs, lineBox "red" e v]) hsp i.inv hpp hsd0 hP hgrid hrl hru hcalc' hdx hk'
      (hsd c' (List.mem_of_getElem? hc')) "green" "lightgreen" (by rw [p2]; rfl) g
    refine ⟨xs, ys, us, vs, (a1.draw [lineBox "red" e v]).draw [lineBox "green" e v'], _, _, _, _, ?_, f2, f3, hus, hvs, ?_, ⟨v, zs, bands, k1, k2, rfl, k3, rfl⟩,
      ⟨v', zs', bands', l1, l2, rfl, l3, rfl⟩⟩
    · rw [hrun, Show.lift_bind (g1 _ hk), Show.lift_bind (g5 _ hk'), hcfg]
      dsimp only [iceInit]
      rw [Show.bind_ok k4]
      dsimp only
      rw [Show.bind_ok l4]
      rfl
    · rw [p2, hmesh]
      rfl

/-! ### figure_1_3 -/

theorem randomLoop_mem {C K R : Type} (o : Objective C K) (l : List C) (hno : ∀ c ∈ l, ∀ t, o.raises t c = none) (k i : Nat) (h : i + k = l.length)
    (s : SamplerState C K R) :
    randomLoop o (.many l) i k s = (⟨s.configs ++ l.drop i, s.ys ++ (l.drop i).map o.value, s.cache, s.calls + k, s.extra⟩, none) := by
  induction k generalizing i s with
  | zero =>
    have : l.drop i = [] := List.drop_eq_nil_of_le (by omega)
    simp [randomLoop, this]
  | succ k ih =>
    have hi : i < l.length := by omega
    unfold randomLoop
    have : Draws.get (.many l) i = .ok l[i] := by simp [Draws.get, pyGet, hi]
    rw [this]
    have hv : o.eval s.calls l[i] = .ok (o.value l[i]) := by rw [Objective.eval, hno _ (List.getElem_mem hi)]
    dsimp only
    rw [hv]
    dsimp only
    have hdrop : l.drop i = l[i] :: l.drop (i + 1) := List.drop_eq_getElem_cons hi
    rw [ih (i + 1) (by omega), hdrop]
    simp only [SamplerState.tick, SamplerState.record, Nat.add_assoc, Nat.add_comm 1 k, List.append_assoc, List.map_cons, List.cons_append, List.nil_append]

/-- the random sampler -/
theorem random_run {i : MainInput S} {d : Nat} {cs : ConfigSpace ℝ} (hs : StSpace d cs) (hi : i.Good cs) {n : Int} (hn : 2 ≤ n) :
    ∃ s, sampleWith (randomSample (callObjective i.inv ⟨cs, styblinskiTangValue cs⟩) i.drawer) (samplerInit i.ofVec i.file i.rng) n = (s, none) ∧
      s.configs.length = n.toNat ∧ (∀ c ∈ s.configs, DrawnFrom cs c) ∧ s.ys.length = s.configs.length ∧
      (∀ (j : Nat) c y, s.configs[j]? = some c → s.ys[j]? = some y → styblinskiTangValue cs c = .ok y) ∧
      (loadCache i.ofVec i.file = [] → s.configs = (i.drawer.draw i.rng n.toNat).1) := by
  obtain ⟨o, ho⟩ : ∃ o, o = callObjective i.inv ⟨cs, styblinskiTangValue cs⟩ := ⟨_, rfl⟩
  have hval : ∀ c, DrawnFrom cs c → styblinskiTangValue cs c = .ok (o.value c) ∧ ∀ t, o.raises t c = none := fun c hc => by
    rw [ho]; exact objective_drawn hs i.inv hc
  rw [← ho]
  by_cases hc : n ≤ (loadCache i.ofVec i.file).length
  · obtain ⟨l, hl⟩ : ∃ l, l = (loadCache i.ofVec i.file).take n.toNat := ⟨_, rfl⟩
    have hmem : ∀ x ∈ l, DrawnFrom cs x.1 ∧ styblinskiTangValue cs x.1 = .ok x.2 := fun x hx => hi.cache x (by rw [hl] at hx; exact List.mem_of_mem_take hx)
    refine ⟨_, sampleWith_hit _ (by omega) (by simpa [samplerInit] using hc), ?_, fun c hc' => ?_, ?_, fun j c y hj hy => ?_, fun h0 => ?_⟩
    · simp only [afterHit, samplerInit, List.nil_append, List.length_map, List.length_take]
      omega
    · simp only [afterHit, samplerInit, List.nil_append, ← hl] at hc'
      obtain ⟨x, hx, rfl⟩ := List.mem_map.1 hc'
      exact (hmem x hx).1
    · simp [afterHit, samplerInit]
    · simp only [afterHit, samplerInit, List.nil_append, ← hl, List.getElem?_map] at hj hy
      obtain ⟨x, hx, rfl⟩ := Option.map_eq_some_iff.1 hj
      rw [hx] at hy
      rw [← Option.some.inj hy]
      exact (hmem x (List.mem_of_getElem? hx)).2
    · rw [h0] at hc
      simp at hc
      omega
  · have hdraw := hi.drawn i.rng n.toNat
    have hd : i.drawer.sampleConfiguration i.rng n = (.many (i.drawer.draw i.rng n.toNat).1, (i.drawer.draw i.rng n.toNat).2) := by
      unfold Drawer.sampleConfiguration
      rw [if_neg (by omega)]
      dsimp only
      rw [if_neg (by omega)]
    obtain ⟨l, hl⟩ : ∃ l, l = (i.drawer.draw i.rng n.toNat).1 := ⟨_, rfl⟩
    have hll : l.length = n.toNat := by rw [hl, i.drawer.draw_length]
    rw [← hl] at hdraw hd
    refine ⟨⟨l, l.map o.value, [], n.toNat, (i.drawer.draw i.rng n.toNat).2⟩, ?_, hll, hdraw, by simp, fun j c y hj hy => ?_, fun _ => hl⟩
    · rw [sampleWith_miss _ (by simp only [samplerInit, List.length_nil]; omega), sampleWith_nocache _ _ rfl, if_pos (by omega), randomSample]
      rw [show (samplerInit i.ofVec i.file i.rng : SamplerState (Config ℝ) ℝ S).clearCache.extra = i.rng from rfl, hd]
      dsimp only
      rw [randomLoop_mem o l (fun c hc => (hval c (hdraw c hc)).2) _ 0 (by omega)]
      simp [samplerInit, SamplerState.clearCache]
    · dsimp only at hj hy
      rw [List.getElem?_map, hj] at hy
      rw [(hval c (hdraw c (List.mem_of_getElem? hj))).1, ← Option.some.inj hy]

/-- any of the samplers -/
theorem paper_sample {i : MainInput S} {cs : ConfigSpace ℝ} (hs : StSpace 2 cs) (hi : i.Good cs) (sampler : PaperSampler) {nCandidates : Int} (hnc : 2 ≤ nCandidates)
    {n : Int} (hn : 2 ≤ n) :
    ∃ s, paperSample ⟨cs, styblinskiTangValue cs⟩ nCandidates n i sampler = .ok s ∧
      s.configs.length = n.toNat ∧ (∀ c ∈ s.configs, DrawnFrom cs c) ∧ s.ys.length = s.configs.length ∧
      (∀ (j : Nat) c y, s.configs[j]? = some c → s.ys[j]? = some y → styblinskiTangValue cs c = .ok y) ∧
      (sampler = .random → loadCache i.ofVec i.file = [] → s.configs = (i.drawer.draw i.rng n.toNat).1) ∧
      (∀ kind, sampler = .bayes kind → loadCache i.ofVec i.file = [] → OptimisedBy 2 i kind 5 nCandidates.toNat s.configs s.ys) := by
  cases sampler with
  | bayes kind =>
    obtain ⟨env, s, henv, hsamp, hsl, hsd, hyl, hsv⟩ := main_sampler (d := 2) (by norm_num) hs hi kind hnc (initial := 5) (by norm_num) (n := n) (by omega)
    have hopt := main_sampler_optimised (d := 2) (by norm_num) hs hi (initial := 5) (by norm_num) (by omega) henv hsamp hsl hsd
    replace hsamp : boSample (callObjective i.inv ⟨cs, styblinskiTangValue cs⟩) env (startSampler i .new) n = (s, none) := hsamp
    refine ⟨⟨s.configs, s.ys, s.cache, s.calls, ()⟩, ?_, hsl, hsd, hyl, hsv, (fun h => by cases h), (fun kind' h => by cases h; exact hopt)⟩
    unfold paperSample
    dsimp only
    rw [henv, Py.ok_bind]
    dsimp only
    rw [hsamp]
  | random =>
    obtain ⟨s, hsamp, hsl, hsd, hyl, hsv, hdr⟩ := random_run hs hi hn
    refine ⟨⟨s.configs, s.ys, s.cache, s.calls, ()⟩, ?_, hsl, hsd, hyl, hsv, fun _ => hdr, fun _ h => by cases h⟩
    unfold paperSample
    dsimp only
    rw [hsamp]

/-- the axes for one sampler: `ax1` shows the function over the square and the evaluated points, `ax3` the true partial dependence on `x1` (black) and the estimate (blue)
from a Gaussian process fitted to these points -/
def ShowsBias (f : BlackboxFn ℝ) (p q hp : Hp ℝ) (e : Nat) (nCandidates n : Int) (perPlot P : Nat) (x : MainInput S × PaperSampler) (ax : Ax ℝ × Ax ℝ) : Prop :=
  ∃ (configs : List (Config ℝ)) (ys : List ℝ) (draws : List (Config ℝ)) (gp : GpSurrogate) (mu sd : List ℝ → ℝ) (as bs us vs zs : List ℝ) (bands : List (Shape ℝ)),
    configs.length = n.toNat ∧ ys.length = n.toNat ∧ (∀ c ∈ configs, DrawnFrom f.cs c) ∧
    (∀ (j : Nat) c y, configs[j]? = some c → ys[j]? = some y → f.value c = .ok y) ∧
    (x.2 = .random → loadCache x.1.ofVec x.1.file = [] → configs = (x.1.drawer.draw x.1.rng n.toNat).1) ∧
    (∀ kind, x.2 = .bayes kind → loadCache x.1.ofVec x.1.file = [] → OptimisedBy 2 x.1 kind 5 nCandidates.toNat configs ys) ∧
    GpSurrogate.new.fit x.1.choose (configs.map Config.vector) ys = (gp, .ok ()) ∧ RowWise 2 gp.predict mu sd ∧ x.1.iceDraws = .many draws ∧
    EvenAxis (-5) 5 false perPlot as ∧ EvenAxis (-5) 5 false perPlot bs ∧ ReadsAs p.name configs us ∧ ReadsAs q.name configs vs ∧
    AxisTwo p q (-5) 5 false (-5) 5 false ax.1 [.mesh as bs (bs.map fun b => as.map fun a => stTwo a b), .points "red" us vs] ∧
    EvenAxis (-5) 5 false perPlot zs ∧
    AxisOne hp "Prediction" (-5) 5 false ax.2 ([.line "black" zs (zs.map (stPartial 2)),
      .line "blue" (naturalGrid (-5) 5 false P) (pdpMeans (draws.map Config.vector) mu e P)] ++ bands) ∧
    ShowsConfidence "lightblue" "lightsalmon" (3 / 2) (naturalGrid (-5) 5 false P) (pdpMeans (draws.map Config.vector) mu e P) (pdpStds (draws.map Config.vector) sd e P) bands

theorem bias_panel {cs : ConfigSpace ℝ} {p q hp other : Hp ℝ} {e o : Nat} (hsp : TwoSpace cs p q hp other e o) (argsort : List ℝ → List Nat) {truth : BlackboxFn ℝ}
    (ht : truth.cs = [hp]) (x : MainInput S × PaperSampler) (hi : x.1.Good cs) (htruth : ∀ t, -5 ≤ t → t ≤ 5 → truth.call x.1.inv [(hp.name, .num t)] = .ok (stPartial 2 t))
    {nCandidates : Int} (hnc : 2 ≤ nCandidates) {n : Int} (hn : 2 ≤ n) {perPlot : Nat} (hpp : 2 ≤ perPlot) {P : Nat} (hP : 1 ≤ P) (g : Gallery) :
    ∃ ax, biasPanel argsort ⟨cs, styblinskiTangValue cs⟩ truth nCandidates n perPlot P x g = (g, .ok ax) ∧
      ShowsBias ⟨cs, styblinskiTangValue cs⟩ p q hp e nCandidates n perPlot P x ax := by
  have hs := hsp.st
  have hlen : List.length cs = 2 := hs.len
  have hhp := List.mem_of_getElem? hsp.at_e
  obtain ⟨s, hsamp, hsl, hsd, hyl, hsv, hdrw, hopt⟩ := paper_sample hs hi x.2 hnc hn
  have hne : s.configs ≠ [] := List.ne_nil_of_length_pos (by omega)
  have hdata : TrainingData 2 (s.configs.map Config.vector) s.ys := configs_data (by norm_num) hne (fun c hc => by rw [(hsd c hc).1, hlen]) hyl
  obtain ⟨gp, hfit, -, mu, sd, hrow, -, -⟩ := C99_unit (by rw [← hlen]; exact hi.kernel) hdata
  have hrow' : RowWise (List.length cs) gp.predict mu sd := by rw [hlen]; exact hrow
  obtain ⟨l, hl1, hl2, hl3⟩ := hi.ice
  obtain ⟨samples, hsm⟩ : ∃ y, y = l.map Config.vector := ⟨_, rfl⟩
  have hdr : UnitDraws cs x.1.iceDraws samples := by
    refine ⟨l, hl1, hsm, by rw [hsm]; simpa using hl2, fun r hr => ?_⟩
    rw [hsm] at hr
    obtain ⟨c, hc, rfl⟩ := List.mem_map.1 hr
    exact ⟨(hl3 c hc).1, (hl3 c hc).2.1⟩
  have hdecl : AllDeclared cs := fun h' hm' => ⟨-5, 5, false, hs.declares hm'⟩
  obtain ⟨c, hc⟩ : ∃ c : IceCfg ℝ, c = ⟨cs, [hp], samples, samples.length, P, P ^ 1, false, gp.predict⟩ := ⟨_, rfl⟩
  have hsel : convertHyperparameters (.name "x1") cs = .ok [hp] := by
    simp [convertHyperparameters, resolveItem, hsp.get]
  have hpdp : pdpInit cs gp.predict (.name "x1") samples P = .ok ⟨c, none, none, none, none⟩ := by
    unfold pdpInit
    rw [algorithmInit, hsel, hc]
    rfl
  have hk : hp.kind = .float (-5) 5 false ∨ hp.kind = .integer (-5) 5 false := .inl (hs.kind hp hhp)
  have hplt := plottable_drawn hs.wf hdecl hrow' (by omega : P ≠ 0) hdr (sel := [hp]) (by simpa using hhp) (by simp) (by simp)
  rw [List.length_singleton, ← hc] at hplt
  obtain ⟨-, dat, hd⟩ := own_gives hplt
  obtain ⟨st, hst⟩ : ∃ st : PdpState ℝ, st = ⟨c, none, none, none, none⟩ := ⟨_, rfl⟩
  have hfr : PdpFresh st := by subst hst; exact ⟨rfl, rfl, rfl⟩
  have hni : st.ice = none := by subst hst; rfl
  have hcfg : st.cfg = c := by subst hst; rfl
  have hice : pdpIce st = .ok (iceInit c) := by
    have : pdpIce st = .ok (iceInit (plainIce st.cfg)) := pdpIce_own hni
    rw [this, hcfg, show plainIce c = c by rw [hc]; rfl]
  rw [show plainIce c = c by rw [hc]; rfl] at hd
  have hsame : SameCurve st { st with ice := some (iceInit c) } := sameCurve_ice hfr hice hd hd
  have hcur : pdpCurve { st with ice := some (iceInit c) } = pdpCurve st := pdpCurve_with_ice hfr hice
  have hnum : hp.numerical? = some (-5, 5, false) := by simp [Hp.numerical?, hs.kind hp hhp]
  have hax := newAxis_one hk "Prediction"
  obtain ⟨zs, consts, z1, ⟨z2, z2'⟩, z3, -⟩ := C73_one (cs := truth.cs) (p := hp) (by rw [ht]; simp [varying, hs.kind hp hhp]) (l := -5) (u := 5) (g := false)
    ⟨hk, by norm_num, by simp⟩ hpp (truth.call x.1.inv) "black" hax
  have hcn : consts = [] := by
    rw [List.eq_nil_iff_forall_not_mem]
    rintro ⟨nm, v⟩ hm
    have := (z2' nm v).1 hm
    rw [ht, List.mem_singleton] at this
    have := hs.kind _ hhp
    subst_vars
    cases this
  rw [hcn] at z3
  obtain ⟨ax0, hax0⟩ : ∃ ax0 : Ax ℝ, ax0 = ⟨hp.name, "Prediction", false, false, some (-5, 5), none, []⟩ := ⟨_, rfl⟩
  rw [← hax0] at hax z3
  obtain ⟨A, hA⟩ : ∃ A : Shape ℝ, A = .line "black" zs (zs.map (stPartial 2)) := ⟨_, rfl⟩
  have htr : plotFunction (truth.call x.1.inv) truth.cs perPlot "black" Ax.new = (ax0.draw [A], .ok ()) := by
    rw [hA]
    exact z3 _ fun a ha => htruth a (evenAxis_within z1 a ha).1 (evenAxis_within z1 a ha).2
  have hpl' : Plottable st.cfg mu sd := by rw [hcfg]; exact hplt
  have hsel' : st.cfg.selected = [hp] := by rw [hcfg, hc]
  have hff : IsFeature st.cfg.space hp e := by rw [hcfg, hc]; exact ⟨hp, hsp.at_e, rfl⟩
  have hcsam : st.cfg.samples = samples := by rw [hcfg, hc]
  have hcper : st.cfg.perAxis = P := by rw [hcfg, hc]
  have hv := values_one hfr hni hpl' hsel' hk hff hsame (axis_again hax [A]) "blue"
  rw [hcsam, hcper] at hv
  obtain ⟨B, hB⟩ : ∃ B : Shape ℝ, B = .line "blue" (naturalGrid (-5) 5 false P) (pdpMeans samples mu e P) := ⟨_, rfl⟩
  rw [← hB, Ax.draw_draw] at hv
  replace hv : pdpPlotValues "blue" st (ax0.draw [A]) = ((pdpCurve st).1, ax0.draw ([A] ++ [B]), .ok ()) := by
    rw [hcur] at hv
    rw [← hv]
    unfold pdpPlotValues
    rw [hcur]
  have hsame' : SameCurve st (pdpCurve st).1 := by
    have := hsame.read
    rwa [hcur] at this
  obtain ⟨bands, hcf, hsh⟩ := confidences_one hfr hni hpl' hsel' hk hff hsame' (axis_again hax ([A] ++ [B])) "lightblue" "lightsalmon" (ms := 3 / 2) (by norm_num)
  rw [hcsam, hcper] at hsh
  rw [Ax.draw_draw] at hcf
  have hpm : p ∈ cs := by rw [hsp.eq]; simp
  have hqm : q ∈ cs := by rw [hsp.eq]; simp
  obtain ⟨as, bs, a0, f1, f2, f3, f4⟩ := function_figure (p := p) (q := q) (by rw [← hsp.eq]; exact hs) x.1.inv hpp "black"
  rw [← hsp.eq] at f1
  obtain ⟨us, hus⟩ := readsAs_drawn hs hpm hsd
  obtain ⟨vs, hvs⟩ := readsAs_drawn hs hqm hsd
  have hax2 := newAxis_two (.inl (hs.kind p hpm)) (.inl (hs.kind q hqm)) "Prediction"
  obtain ⟨mesh, hmesh⟩ : ∃ m : Shape ℝ, m = .mesh as bs (bs.map fun b => as.map fun a => stTwo a b) := ⟨_, rfl⟩
  rw [← hmesh] at f4
  obtain ⟨a1, p1, p2⟩ : ∃ ax', samplerPlot argsort "red" cs .none s a0 = (ax', .ok ()) ∧ AxisTwo p q (-5) 5 false (-5) 5 false ax' [mesh, .points "red" us vs] := by
    have := axis_again hax2 [mesh]
    have e : (⟨p.name, q.name, false, false, some (-5, 5), some (-5, 5), []⟩ : Ax ℝ).draw [mesh] = a0 := by rw [f4]; rfl
    rw [e] at this
    refine ⟨_, C86_two argsort (by rw [hsp.eq]; rfl) hne hus hvs "red" this, ?_⟩
    rw [f4]; rfl
  refine ⟨(a1, ax0.draw ([A] ++ [B] ++ bands)), ?_, s.configs, s.ys, l, gp, mu, sd, as, bs, us, vs, zs, bands, hsl, by rw [hyl, hsl], hsd, hsv, hdrw, hopt, hfit, hrow, hl1, f2, f3, hus, hvs,
    by rw [← hmesh]; exact p2, z1, ?_, by rw [← hsm]; exact hsh⟩
  · unfold biasPanel
    rw [Show.lift_bind hsamp, Show.changed_bind hfit, Show.lift_bind (samplesOf_drawn hdr), Show.lift_bind hpdp, ← hst, Show.on_bind f1, Show.on_bind p1, Show.on_bind htr,
      Show.onWith_bind hv]
    dsimp only
    rw [Show.onWith_bind hcf]
    rfl
  · unfold AxisOne
    rw [← hsm, ← hA, ← hB, hax0]
    simp [Ax.draw]

theorem bias_panels {f truth : BlackboxFn ℝ} {argsort : List ℝ → List Nat} {p q hp : Hp ℝ} {e : Nat} {nCandidates n : Int} {perPlot P : Nat}
    (l : List (MainInput S × PaperSampler)) (g : Gallery)
    (h : ∀ x ∈ l, ∃ ax, biasPanel argsort f truth nCandidates n perPlot P x g = (g, .ok ax) ∧ ShowsBias f p q hp e nCandidates n perPlot P x ax) :
    ∃ axs, biasPanels argsort f truth nCandidates n perPlot P l g = (g, .ok axs) ∧ List.Forall₂ (ShowsBias f p q hp e nCandidates n perPlot P) l axs := by
  induction l with
  | nil => exact ⟨[], rfl, .nil⟩
  | cons x l ih =>
    obtain ⟨ax, h1, h2⟩ := h x (by simp)
    obtain ⟨axs, h3, h4⟩ := ih fun y hy => h y (by simp [hy])
    refine ⟨ax :: axs, ?_, .cons h2 h4⟩
    unfold biasPanels
    rw [Show.bind_ok h1, Show.bind_ok h3]
    rfl

/-- **C116** `figure_1_3` of examples/main_paper.py runs through for every list of at least two samplers, whatever they draw. The first saved figure has one axis per sampler, with the
function over the whole square and the `n` points that this sampler evaluated: random ones, or 5 random ones and then maximisers of the acquisition function. The second one shows, in the same order, the true partial dependence on `x1`, i.e. the average over the
other axis, and the estimate from a Gaussian process that is fitted to exactly these `n` points, with its confidence band. Without any sampler the code raises a ValueError, with
one a TypeError, and no figure is saved. -/
theorem C116_figure13 {order : SpaceOrder ℝ} (hord : ∀ l, (order l).Perm l) (argsort : List ℝ → List Nat) {f : BlackboxFn ℝ}
    (hf : forNDimensions order (-5) 5 false styblinskiTangValue ((2 : Nat) : ℝ) none none = .ok f) (samplers : List (MainInput S × PaperSampler))
    (hi : ∀ x ∈ samplers, x.1.Good f.cs) {nCandidates : Int} (hnc : 2 ≤ nCandidates) {n : Int} (hn : 2 ≤ n) {perPlot : Nat} (hpp : 2 ≤ perPlot) {P : Nat} (hP : 1 ≤ P)
    (g : Gallery) :
    (samplers.length = 0 → figure13 order argsort samplers nCandidates n perPlot P g = (g, .error .value)) ∧
    (samplers.length = 1 → figure13 order argsort samplers nCandidates n perPlot P g = (g, .error .type)) ∧
    (2 ≤ samplers.length → ∃ (p q hp other : Hp ℝ) (e o : Nat) (axs : List (Ax ℝ × Ax ℝ)), TwoSpace f.cs p q hp other e o ∧
      figure13 order argsort samplers nCandidates n perPlot P g =
        (⟨g.count, saveFig (saveFig g.files "Figure 1.png" (axs.map (·.1))) "Figure 3.png" (axs.map (·.2))⟩, .ok ()) ∧
      List.Forall₂ (ShowsBias f p q hp e nCandidates n perPlot P) samplers axs) := by
  obtain ⟨hfcs, p, q, hp, other, e, o, hsp⟩ := two_space hord hf
  obtain ⟨cs, hf', hs, hnames⟩ := stSpace_ok hord 2
  rw [hf] at hf'
  obtain rfl := Except.ok.inj hf'
  dsimp only at hsp hi
  have hhp := List.mem_of_getElem? hsp.at_e
  have hint : ∃ F, styblinskiTangPdIntegral order cs [.name "x2"] = .ok (F, -(25 / 6) * (((2 : Nat) : ℝ) - 1)) ∧ F.cs = [hp] ∧
      ∀ inv a, -5 ≤ a → a ≤ 5 → F.call inv [(hp.name, .num a)] = .ok (stPartial 2 a) := by
    have hk := hs.kind hp hhp
    obtain ⟨F, g1, g2, -⟩ := others_integral hord (fun _ _ => 0) (le_refl 2) (cs := cs) ⟨hs.len, hs.wf, hnames⟩ (fun q hq => ⟨-5, 5, hs.kind q hq, by norm_num⟩) hhp hsp.name
    rw [meanOffset_full hs hhp] at g1
    refine ⟨F, g1, g2, fun inv a ha hb => ?_⟩
    obtain ⟨F', g1', -, g3⟩ := others_integral hord inv (le_refl 2) (cs := cs) ⟨hs.len, hs.wf, hnames⟩ (fun q hq => ⟨-5, 5, hs.kind q hq, by norm_num⟩) hhp hsp.name
    rw [g1] at g1'
    obtain rfl := (Prod.mk.inj (Except.ok.inj g1')).1
    rw [g3 (-5) 5 a hk ha hb, meanOffset_full hs hhp]
    congr 1
    unfold stTerm stPartial
    ring
  obtain ⟨F, g1, g2, g3⟩ := hint
  have hrun : figure13 order argsort samplers nCandidates n perPlot P g = (do
      Show.lift (subplotsRow samplers.length)
      let panels ← biasPanels argsort ⟨cs, styblinskiTangValue cs⟩ F nCandidates n perPlot P samplers
      Show.save "Figure 1.png" (panels.map (·.1))
      Show.save "Figure 3.png" (panels.map (·.2)) : Show Unit) g := by
    unfold figure13
    rw [Show.lift_bind hf]
    dsimp only
    rw [Show.lift_bind g1]
  refine ⟨fun h => ?_, fun h => ?_, fun h => ?_⟩
  · rw [hrun, h]
    rfl
  · rw [hrun, h]
    rfl
  · obtain ⟨axs, b1, b2⟩ := bias_panels samplers g fun x hx => bias_panel hsp argsort g2 x (hi x hx) (g3 x.1.inv) hnc hn hpp hP g
    refine ⟨p, q, hp, other, e, o, axs, hsp, ?_, b2⟩
    rw [hrun, Show.lift_bind (a := ()) (by unfold subplotsRow; rw [if_neg (by omega), if_neg (by omega)]), Show.bind_ok b1]
    rfl

/-- **C116** With the samplers of the paper the three axes belong, from left to right, to the acquisition functions LCB with `tau = 0.1` and with `tau = 2`, and to random
sampling. -/
theorem C116_figure13_default {order : SpaceOrder ℝ} (hord : ∀ l, (order l).Perm l) (argsort : List ℝ → List Nat) {f : BlackboxFn ℝ}
    (hf : forNDimensions order (-5) 5 false styblinskiTangValue ((2 : Nat) : ℝ) none none = .ok f) {a b c : MainInput S}
    (ha : a.Good f.cs) (hb : b.Good f.cs) (hc : c.Good f.cs) {nCandidates : Int} (hnc : 2 ≤ nCandidates) {n : Int} (hn : 2 ≤ n) {perPlot : Nat} (hpp : 2 ≤ perPlot)
    {P : Nat} (hP : 1 ≤ P) (g : Gallery) : ∃ (p q hp other : Hp ℝ) (e o : Nat) (x y z : Ax ℝ × Ax ℝ), TwoSpace f.cs p q hp other e o ∧
      figure13 order argsort (defaultSamplers a b c) nCandidates n perPlot P g =
        (⟨g.count, saveFig (saveFig g.files "Figure 1.png" [x.1, y.1, z.1]) "Figure 3.png" [x.2, y.2, z.2]⟩, .ok ()) ∧
      ShowsBias f p q hp e nCandidates n perPlot P (a, .bayes (.lcb (1 / 10))) x ∧ ShowsBias f p q hp e nCandidates n perPlot P (b, .bayes (.lcb 2)) y ∧
      ShowsBias f p q hp e nCandidates n perPlot P (c, .random) z := by
  obtain ⟨p, q, hp, other, e, o, axs, h1, h2, h3⟩ := (C116_figure13 hord argsort hf (defaultSamplers a b c) (by
    intro x hx
    simp only [defaultSamplers, List.mem_cons, List.not_mem_nil, or_false] at hx
    rcases hx with rfl | rfl | rfl
    exacts [ha, hb, hc]) hnc hn hpp hP g).2.2 (by simp [defaultSamplers])
  unfold defaultSamplers at h3
  match axs, h3 with
  | [x, y, z], .cons k1 (.cons k2 (.cons k3 .nil)) => exact ⟨p, q, hp, other, e, o, x, y, z, h1, h2, k1, k2, k3⟩

/-! ### A concrete case: every draw is the middle of the square; the samples of `figure_4` are ten times two corners -/

/-- the point with `t` in every coordinate of the unit square -/
noncomputable def levelConfig (cs : ConfigSpace ℝ) (t : ℝ) : Config ℝ := ⟨cs.map fun _ => t, cs.map fun hp => (hp.name, .num (-5 + t * 10))⟩

theorem levelConfig_drawn {d : Nat} {cs : ConfigSpace ℝ} (hs : StSpace d cs) {t : ℝ} (h0 : 0 ≤ t) (h1 : t ≤ 1) : DrawnFrom cs (levelConfig cs t) := by
  refine ⟨by simp [levelConfig], fun e he => ?_, by simp [levelConfig], fun j hp l u g e hj hk he => ?_⟩
  · simp only [levelConfig, List.mem_map] at he
    obtain ⟨_, _, rfl⟩ := he
    exact ⟨h0, h1⟩
  · have hm := List.mem_of_getElem? hj
    have := hs.kind hp hm
    rw [hk] at this
    cases this
    have he' : e = t := by
      simp only [levelConfig, List.getElem?_map, hj, Option.map_some, Option.some.injEq] at he
      exact he.symm
    have h0 : interpolate (-5) 5 false e = -5 + t * 10 := by rw [he']; simp only [interpolate]; norm_num; ring
    rw [h0]
    exact get?_of_mem (by rw [List.map_map]; exact hs.wf) (List.mem_map.2 ⟨hp, hm, rfl⟩) _

section
variable {cs : ConfigSpace ℝ} (hs : StSpace 2 cs)

noncomputable def levelInput (cs : ConfigSpace ℝ) : MainInput Unit :=
  ⟨id, fun _ _ => matern 1, fun _ _ => 0, ⟨fun _ n => (List.replicate n (levelConfig cs (1 / 2)), ()), by simp⟩,
    ⟨fun _ n => (List.replicate n (levelConfig cs (1 / 2)), ()), by simp⟩, (), fun _ => .error .value, .absent,
    .many (List.replicate 10 (levelConfig cs 0) ++ List.replicate 10 (levelConfig cs 1))⟩

include hs in
theorem levelInput_good : (levelInput cs).Good cs := by
  have hdrawn : ∀ s n, ∀ c ∈ ((levelInput cs).drawer.draw s n).1, DrawnFrom cs c := by
    intro s n c hc
    rw [List.eq_of_mem_replicate hc]
    exact levelConfig_drawn hs (by norm_num) (by norm_num)
  refine ⟨fun l => List.Perm.refl l, fun _ _ => matern_unit one_pos _, hdrawn, hdrawn, by simp [loadCache, levelInput], ⟨_, rfl, by simp, fun c hc => ?_⟩⟩
  rcases List.mem_append.1 hc with hc | hc
  · rw [List.eq_of_mem_replicate hc]; exact levelConfig_drawn hs le_rfl zero_le_one
  · rw [List.eq_of_mem_replicate hc]; exact levelConfig_drawn hs zero_le_one le_rfl
end

/-- the two figures for the three samplers of the script -/
example : ∃ (i : MainInput Unit) (a b c a' b' c' : Ax ℝ),
    figure13 id exArgsort (defaultSamplers i i i) 100 50 100 20 ⟨0, []⟩ = (⟨0, [("Figure 1.png", [a, b, c]), ("Figure 3.png", [a', b', c'])]⟩, .ok ()) ∧
    figure13 id exArgsort [(i, .random)] 100 50 100 20 ⟨0, []⟩ = (⟨0, []⟩, .error .type) := by
  obtain ⟨cs, hf, hs, -⟩ := stSpace_ok (order := id) (fun l => List.Perm.refl l) 2
  have hg := levelInput_good hs
  obtain ⟨-, -, h3⟩ := C116_figure13 (S := Unit) (order := id) (fun l => List.Perm.refl l) exArgsort hf (defaultSamplers (levelInput cs) (levelInput cs) (levelInput cs)) (by
    intro x hx
    simp only [defaultSamplers, List.mem_cons, List.not_mem_nil, or_false] at hx
    rcases hx with rfl | rfl | rfl <;> exact hg) (nCandidates := 100) (by norm_num) (n := 50) (by norm_num) (perPlot := 100) (by norm_num) (P := 20) (by norm_num) ⟨0, []⟩
  obtain ⟨-, h2, -⟩ := C116_figure13 (S := Unit) (order := id) (fun l => List.Perm.refl l) exArgsort hf [(levelInput cs, .random)] (by
    intro x hx
    rw [List.mem_singleton.1 hx]
    exact hg) (nCandidates := 100) (by norm_num) (n := 50) (by norm_num) (perPlot := 100) (by norm_num) (P := 20) (by norm_num) ⟨0, []⟩
  obtain ⟨p, q, hp, other, e, o, axs, -, h4, h5⟩ := h3 (by simp [defaultSamplers])
  have hl := h5.length_eq
  simp only [defaultSamplers, List.length_cons, List.length_nil] at hl
  match axs, hl with
  | [x, y, z], _ => exact ⟨levelInput cs, _, _, _, _, _, _, h4, h2 rfl⟩

/-- `figure_2` of the script -/
example : ∃ (i : MainInput Unit) (s : BOState (Config ℝ) ℝ GpSurrogate Unit) (a b c : Ax ℝ),
    figure2 i exArgsort (.lcb (1 / 10)) 40 100 200 100 20 0 20 ⟨0, []⟩ = (⟨0, [("Figure 2.png", [a, b, c])]⟩, .ok s) ∧ s.configs.length = 40 ∧
    figure2 i exArgsort (.lcb (1 / 10)) 20 100 200 100 20 0 20 ⟨0, []⟩ = (⟨0, []⟩, .error .index) := by
  obtain ⟨cs, hf, hs, -⟩ := stSpace_ok (order := id) (fun l => List.Perm.refl l) 2
  have hg := levelInput_good hs
  obtain ⟨p, q, hp, other, e, o, s, mu, sd, -, h1, -, -, -, -, -, -, -, h2⟩ := C116_figure2 (i := levelInput cs) hf hg exArgsort (1 / 10) (n := 40) (nCandidates := 100)
    (by norm_num) (by norm_num) (perLarge := 200) (perPlot := 100) (by norm_num) (by norm_num) (P := 20) (by norm_num) 0 20 ⟨0, []⟩
  obtain ⟨_, _, _, _, _, _, _, _, _, -, -, -, -, -, -, -, -, h3, -⟩ := C116_figure2 (i := levelInput cs) hf hg exArgsort (1 / 10) (n := 20) (nCandidates := 100)
    (by norm_num) (by norm_num) (perLarge := 200) (perPlot := 100) (by norm_num) (by norm_num) (P := 20) (by norm_num) 0 20 ⟨0, []⟩
  replace h1 : s.configs.length = 40 := h1
  obtain ⟨xs, ys, us, vs, large, ax1, ax2, -, -, h4, -⟩ := h2 _ _ (List.getElem?_eq_getElem (by omega)) (List.getElem?_eq_getElem (by omega))
  exact ⟨levelInput cs, s, large, ax1, ax2, h4, h1, h3 (.inr (by norm_num))⟩

/-- `figure_4` of the script: the first threshold already separates the two corners, and the ten rows above it are drawn first -/
example : ∃ (i : MainInput Unit) (r : Figure4) (ax : Ax ℝ) (other : Hp ℝ) (t : ℝ) (mu : List ℝ → ℝ) (e : Nat), figure4 i (.lcb (1 / 10)) 50 100 20 100 10 ⟨0, []⟩ = (⟨0, [("Figure 4.png", [ax])]⟩, .ok r) ∧
    r.left.conds = [⟨other, .flt t, some false⟩] ∧ ax.shapes.take 10 = List.replicate 10 (sampleLine "green" mu e 20 [1, 1]) := by
  obtain ⟨cs, hf, hs, -⟩ := stSpace_ok (order := id) (fun l => List.Perm.refl l) 2
  have hg := levelInput_good hs
  obtain ⟨p, q, hp, other, e, o, configs, ys, gp, mu, sd, rows, hsp, hrows, -, -, -, -, -, -, -, -, h⟩ := C116_figure4 (i := levelInput cs) hf hg rfl (.lcb (1 / 10)) (n := 50) (nCandidates := 100)
    (by norm_num) (by norm_num) (perAxis := 20) (by norm_num) 100 (m := 10) (by norm_num) ⟨0, []⟩
  dsimp only at hsp
  have hr : rows = List.replicate 10 [0, 0] ++ List.replicate 10 [1, 1] := by
    rw [hrows, hsp.eq]
    simp [levelConfig]
  have ho : o = 0 ∨ o = 1 := by have := hsp.sum; omega
  have hb : ∀ t : ℝ, 0 ≤ t → t < 1 → below o t rows = List.replicate 10 [0, 0] ∧ above o t rows = List.replicate 10 [1, 1] := by
    intro t h0 h1
    rcases ho with rfl | rfl <;> simp [below, above, hr, h0, h1, not_le.2 h1, not_lt.2 h0]
  have ht : ∀ j, j ≤ 100 → (0 : ℝ) ≤ threshold 100 j ∧ (threshold 100 j : ℝ) < 1 := by
    intro j hj
    have : (j : ℝ) ≤ 100 := by exact_mod_cast hj
    refine ⟨by unfold threshold; positivity, ?_⟩
    unfold threshold
    rw [div_lt_one (by norm_num)]
    push_cast
    linarith
  have hadm : Admissible 100 10 o rows 1 := by
    obtain ⟨a, b⟩ := hb _ (ht 1 (by norm_num)).1 (ht 1 (by norm_num)).2
    exact ⟨le_rfl, by norm_num, by rw [a]; simp, by rw [b]; simp⟩
  obtain ⟨j, tree, left, right, ax, j1, -, j2, j3, -, j4⟩ := h ⟨1, hadm⟩
  refine ⟨levelInput cs, ⟨tree, left, right⟩, ax, other, threshold 100 j, mu, e, j2, j3, ?_⟩
  obtain ⟨a, b⟩ := hb _ (ht j j1.2.1).1 (ht j j1.2.1).2
  rw [show ax.shapes = _ from congrArg Ax.shapes j4, a, b]
  simp

end PyPDP
