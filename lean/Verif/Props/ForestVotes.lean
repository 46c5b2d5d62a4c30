/-
C191: with a growing number of trees the incumbent region of a forest settles.
-/
import Verif.Props.Bootstrap
import Verif.Props.ForestRegion

namespace PyPDP
open Spec MeasureTheory ProbabilityTheory Filter Topology

/-- The draws of the trees are independent and have the same distribution. -/
structure Spec.RandomTrees {Ω : Type} [MeasurableSpace Ω] (P : Measure Ω) (W : ℕ → Ω → ForestDraw) : Prop where
  meas : ∀ k (s : Set ForestDraw), MeasurableSet (W k ⁻¹' s)
  indep : iIndepFun (m := fun _ => ⊤) W P
  ident : ∀ k (s : Set ForestDraw), P (W k ⁻¹' s) = P (W 0 ⁻¹' s)

/-- The only tree of a forest that is grown with the draw `w` has a leaf that contains both configurations. -/
def Spec.TreeShares (p : RF ℝ) (maxDepth size : Int) (a b : Config ℝ) (w : ForestDraw) : Prop :=
  ∃ t, (rfPartition p 1 maxDepth (some size) fun _ => w).1.trees = some [t] ∧ SharesLeaf t a b

section draws
variable {Ω : Type} [MeasurableSpace Ω] {P : Measure Ω} [IsProbabilityMeasure P] {W : ℕ → Ω → ForestDraw}

open Classical in
/-- the share of the trees whose draws have some property tends to its probability; properties without probability do not occur -/
theorem draw_law (hW : RandomTrees P W) (s : Set ForestDraw) :
    Tendsto (fun a : ℕ × Ω => (((List.range a.1).countP fun k => decide (W k a.2 ∈ s) : ℕ) : ℝ) / a.1) (tailFilter P expRates ⟨_, 0, 1, le_rfl, one_pos, rfl⟩ exp_rates.1)
      (𝓝 (P.real {ω | W 0 ω ∈ s})) ∧
    (P {ω | W 0 ω ∈ s} = 0 → ∀ᶠ a in tailFilter P expRates ⟨_, 0, 1, le_rfl, one_pos, rfl⟩ exp_rates.1, ∀ k, W k a.2 ∉ s) ∧
    Tendsto Prod.fst (tailFilter P expRates ⟨_, 0, 1, le_rfl, one_pos, rfl⟩ exp_rates.1) atTop := by
  obtain ⟨space, hspace⟩ : ∃ space : ConfigSpace ℝ, space.length = 1 := ⟨[⟨"x", .float 0 1 false⟩], rfl⟩
  obtain ⟨φ, hφ⟩ : ∃ φ : ForestDraw → Fin space.length → ℝ, φ = fun w _ => if w ∈ s then 1 else 0 := ⟨_, rfl⟩
  obtain ⟨X, hXd⟩ : ∃ X : ℕ → Ω → Fin space.length → ℝ, X = fun k ω => φ (W k ω) := ⟨_, rfl⟩
  have hpre : ∀ k (S : Set (Fin space.length → ℝ)), X k ⁻¹' S = W k ⁻¹' (φ ⁻¹' S) := by
    intro k S
    rw [hXd]
    rfl
  have hmeas : ∀ k, Measurable (X k) := by
    intro k S _
    rw [hpre]
    exact hW.meas k _
  have hind : iIndepFun X P := by
    rw [hXd]
    exact hW.indep.comp (mβ := fun _ => ⊤) (fun _ => φ) fun _ => measurable_from_top
  have hX : IsRandomSample P X := by
    refine ⟨hmeas, fun i j hij => hind.indepFun hij, fun i => ?_⟩
    ext S hS
    rw [Measure.map_apply (hmeas i) hS, Measure.map_apply (hmeas 0) hS, hpre, hpre, hW.ident]
  have hlaw : SampleLaw P X (fun q => (Measurable fun x : Fin space.length → ℝ => q (List.ofFn x)) ∧ ∃ B : ℝ, ∀ᵐ x ∂(P.map (X 0)), |q (List.ofFn x)| ≤ B)
      (tailFilter P expRates ⟨_, 0, 1, le_rfl, one_pos, rfl⟩ exp_rates.1) :=
    tail_law hX exp_rates.2 fun A hA q ⟨hq, B, hB⟩ ε hε => exp_deviation hX hind hA hq hB hε
  have hrow : ∀ k ω, List.ofFn (X k ω) = [if W k ω ∈ s then 1 else 0] := by
    intro k ω
    rw [hXd, hφ]
    refine List.ext_getElem (by simp [hspace]) fun j h1 h2 => ?_
    simp
  have hpass : passing (F := space.length) (fun r => decide (r.getD 0 0 = 1)) = {x | x ⟨0, by omega⟩ = 1} := by
    ext x
    simp [passing, hspace]
    rfl
  have hA : MeasurableSet (passing (F := space.length) (fun r => decide (r.getD 0 0 = 1))) := by
    rw [hpass]
    exact (measurable_pi_apply _) (measurableSet_singleton 1)
  have hin : X 0 ⁻¹' passing (F := space.length) (fun r => decide (r.getD 0 0 = 1)) = {ω | W 0 ω ∈ s} := by
    ext ω
    change decide ((List.ofFn (X 0 ω)).getD 0 0 = 1) = true ↔ W 0 ω ∈ s
    rw [hrow]
    by_cases h : W 0 ω ∈ s <;> simp [h]
  refine ⟨?_, fun h0 => ?_, hlaw.large⟩
  · have h := hlaw.share ⟨measurable_const, 1, by simp⟩ hA
    rw [Measure.real, Measure.map_apply (hmeas 0) hA, hin] at h
    refine h.congr fun a => ?_
    congr 2
    rw [firstSamples, List.filter_map, List.length_map, List.countP_eq_length_filter]
    refine congrArg _ (List.filter_congr fun k _ => ?_)
    simp only [Function.comp, hrow]
    by_cases h : W k a.2 ∈ s <;> simp [h]
  · filter_upwards [hlaw.null _ (by rw [Measure.map_apply (hmeas 0) hA, hin]; exact h0)] with a ha k hk
    refine ha k ?_
    change decide ((List.ofFn (X k a.2)).getD 0 0 = 1) = true
    rw [hrow]
    simp [hk]

end draws

/-! ### votes -/

open Classical in
/-- the votes are those of the draws -/
theorem votes_draws {p : RF ℝ} (hp : ValidRF p) {mu sd : List ℝ → ℝ} (hmu : RowWise p.cfg.space.length p.cfg.predict mu sd) (hn : p.cfg.samples ≠ [])
    (hg : 1 ≤ p.cfg.perAxis) {numTrees maxDepth size : Int} (ht : 0 < numTrees) (hd : 0 < maxDepth) (hs : 0 < size) {draw : Nat → ForestDraw}
    (hw : ∀ k, ValidDraw p size.toNat (draw k)) {trees : List (DT ℝ)} (h : (rfPartition p numTrees maxDepth (some size) draw).1.trees = some trees) (a b : Config ℝ) :
    votes trees a b = (List.range numTrees.toNat).countP fun k => decide (TreeShares p maxDepth size a b (draw k)) := by
  obtain ⟨i, hi, -, -, hicfg⟩ := rfIce_ok hp
  have hall : ∀ k, ∃ t, growTree p i maxDepth (draw k) = .ok t := fun k => by
    obtain ⟨-, t, -, g, -⟩ := growTree_ok hp hmu hn hg hicfg (Int.lt_toNat.2 hs) hd (hw k)
    exact ⟨t, g⟩
  choose T hT using hall
  have e : trees = (List.range numTrees.toNat).map T := by
    rw [partition_of_trees (ts := (List.range numTrees.toNat).map T) hi ht hd hs (by
      rw [List.forall₂_map_left_iff, List.forall₂_map_right_iff, List.forall₂_same]
      exact fun k _ => hT k)] at h
    exact (Option.some.inj h).symm
  rw [e, votes, List.countP_map]
  refine List.countP_congr fun k _ => ?_
  have h1 := partition_of_trees (ts := [T k]) (draw := fun _ => draw k) hi one_pos hd hs (by simpa using hT k)
  simp only [Function.comp, decide_eq_true_eq, TreeShares, h1]
  constructor
  · exact fun h => ⟨_, rfl, h⟩
  · rintro ⟨t, ht, h⟩
    obtain rfl : T k = t := by simpa using ht
    exact h

section region
variable {Ω : Type} [MeasurableSpace Ω] {P : Measure Ω} [IsProbabilityMeasure P] {W : ℕ → Ω → ForestDraw} {p : RF ℝ} {mu sd : List ℝ → ℝ} {maxDepth size : Int}
  {ofVector : List ℝ → Config ℝ} {inc : Config ℝ}

open Classical in
omit [IsProbabilityMeasure P] in
/-- if it is eventually clear which samples get enough votes then the region consists of them -/
theorem region_of_votes (hp : ValidRF p) (hice : p.ice = none) (hnum : ∀ hp ∈ p.possible, hp.isNumerical = true)
    (hmu : RowWise p.cfg.space.length p.cfg.predict mu sd) (hn : p.cfg.samples ≠ []) (hg : 1 ≤ p.cfg.perAxis) (hd : 0 < maxDepth) (hs : 0 < size)
    (hw : ∀ k ω, ValidDraw p size.toNat (W k ω)) (hof : ∀ r ∈ p.cfg.samples, HasNumbers p.possible (ofVector r)) (hinc : HasNumbers p.possible inc)
    {o : ℕ → Option Int} {good : List ℝ → Prop}
    (h : ∀ r ∈ p.cfg.samples, ∀ᶠ a in tailFilter P expRates ⟨_, 0, 1, le_rfl, one_pos, rfl⟩ exp_rates.1,
      ((o a.1).getD (a.1 : Int) ≤ ((List.range a.1).countP fun k => decide (TreeShares p maxDepth size (ofVector r) inc (W k a.2)) : ℕ) ↔ good r)) :
    ∃ own, calcNow (iceInit p.cfg) = .ok own ∧ ∃ C c : ℝ, 0 < c ∧ ∀ T : ℕ, 1 ≤ T → P {ω | ¬ ∃ R,
      rfIncumbentRegion ofVector (rfPartition p T maxDepth (some size) fun k => W k ω).1 inc (o T) = .ok R ∧
      curves R = ((p.cfg.samples.zip (dataCurves own)).filter fun e => decide (good e.1)).map Prod.snd} ≤ ENNReal.ofReal (C * Real.exp (-c * T)) := by
  obtain ⟨idx, hidx, -⟩ := hp.cfg.idx
  obtain ⟨grid, hgr, -⟩ := C40_grid (K := ℝ) (List.length_pos_iff.2 hp.cfg.sel_ne) p.cfg.perAxis
  obtain ⟨own, o1, -, -⟩ := calcNow_curves hp.cfg hp.not_centered hmu hn hg hidx hgr
  obtain ⟨r, ⟨C, c, -, hc, rfl⟩, hr⟩ := mem_tail.1 ((eventually_all_finset p.cfg.samples.toFinset).2 fun r hr => h r (List.mem_toFinset.1 hr))
  refine ⟨own, o1, C, c, hc, fun T hT => (measure_mono ?_).trans (hr T)⟩
  rintro ω hω hgood
  obtain ⟨own', trees, R, h1, h2, -, h4, h5⟩ := C69_after_partition hp hice hnum hmu hn hg (numTrees := T) (by exact_mod_cast hT) hd hs (draw := fun k => W k ω)
    (fun k _ => hw k ω) hof hinc (o T)
  rw [o1] at h1
  obtain rfl := Except.ok.inj h1
  refine hω ⟨R, h4, ?_⟩
  rw [h5]
  congr 1
  refine List.filter_congr fun e he => ?_
  have hm : e.1 ∈ p.cfg.samples := (List.of_mem_zip he).1
  rw [votes_draws hp hmu hn hg (by exact_mod_cast hT) hd hs (fun k => hw k ω) h2]
  have := hgood e.1 (List.mem_toFinset.2 hm)
  simp only [Int.toNat_natCast] at this ⊢
  simp only [this]

open Classical in
/-- **C191.** The trees of a forest get independent draws. If `min_incumbent_overlap` is about the share `α` of the number `T` of trees, and no sample shares a leaf with
the incumbent with the probability `α`, then the incumbent region consists of the samples that share a leaf with a larger probability, except with a probability that
decreases exponentially with `T`. -/
theorem C191_majority (hp : ValidRF p) (hice : p.ice = none) (hnum : ∀ hp ∈ p.possible, hp.isNumerical = true)
    (hmu : RowWise p.cfg.space.length p.cfg.predict mu sd) (hn : p.cfg.samples ≠ []) (hg : 1 ≤ p.cfg.perAxis) (hd : 0 < maxDepth) (hs : 0 < size)
    (hW : RandomTrees P W) (hw : ∀ k ω, ValidDraw p size.toNat (W k ω)) (hof : ∀ r ∈ p.cfg.samples, HasNumbers p.possible (ofVector r)) (hinc : HasNumbers p.possible inc)
    {o : ℕ → Int} {α : ℝ} (ho : Tendsto (fun T : ℕ => (o T : ℝ) / T) atTop (𝓝 α))
    (hα : ∀ r ∈ p.cfg.samples, P.real {ω | TreeShares p maxDepth size (ofVector r) inc (W 0 ω)} ≠ α) :
    ∃ own, calcNow (iceInit p.cfg) = .ok own ∧ ∃ C c : ℝ, 0 < c ∧ ∀ T : ℕ, 1 ≤ T → P {ω | ¬ ∃ R,
      rfIncumbentRegion ofVector (rfPartition p T maxDepth (some size) fun k => W k ω).1 inc (some (o T)) = .ok R ∧
      curves R = ((p.cfg.samples.zip (dataCurves own)).filter fun e =>
        decide (α < P.real {ω | TreeShares p maxDepth size (ofVector e.1) inc (W 0 ω)})).map Prod.snd} ≤ ENNReal.ofReal (C * Real.exp (-c * T)) := by
  refine region_of_votes (o := fun T => some (o T)) (good := fun r => α < P.real {ω | TreeShares p maxDepth size (ofVector r) inc (W 0 ω)})
    hp hice hnum hmu hn hg hd hs hw hof hinc fun r hr => ?_
  obtain ⟨h1, -, h3⟩ := draw_law hW {w | TreeShares p maxDepth size (ofVector r) inc w}
  simp only [Set.mem_ofPred_eq] at h1
  have h4 := ho.comp h3
  rcases lt_or_gt_of_ne (hα r hr) with hlt | hgt
  · filter_upwards [h1.eventually_lt h4 hlt, h3.eventually (eventually_gt_atTop 0)] with a ha h0
    have h0 : (0 : ℝ) < a.1 := by exact_mod_cast h0
    simp only [Function.comp] at ha
    rw [div_lt_div_iff_of_pos_right h0] at ha
    refine iff_of_false (fun h => ?_) hlt.not_gt
    exact ha.not_ge (by exact_mod_cast h)
  · filter_upwards [h4.eventually_lt h1 hgt, h3.eventually (eventually_gt_atTop 0)] with a ha h0
    have h0 : (0 : ℝ) < a.1 := by exact_mod_cast h0
    simp only [Function.comp] at ha
    rw [div_lt_div_iff_of_pos_right h0] at ha
    refine iff_of_true ?_ hgt
    have : ((o a.1 : ℤ) : ℝ) ≤ (((List.range a.1).countP fun k => decide (TreeShares p maxDepth size (ofVector r) inc (W k a.2)) : ℕ) : ℤ) := by exact_mod_cast ha.le
    exact_mod_cast this

open Classical in
/-- without `min_incumbent_overlap` the region consists of the samples that almost surely share a leaf with the incumbent -/
theorem C191_default (hp : ValidRF p) (hice : p.ice = none) (hnum : ∀ hp ∈ p.possible, hp.isNumerical = true)
    (hmu : RowWise p.cfg.space.length p.cfg.predict mu sd) (hn : p.cfg.samples ≠ []) (hg : 1 ≤ p.cfg.perAxis) (hd : 0 < maxDepth) (hs : 0 < size)
    (hW : RandomTrees P W) (hw : ∀ k ω, ValidDraw p size.toNat (W k ω)) (hof : ∀ r ∈ p.cfg.samples, HasNumbers p.possible (ofVector r)) (hinc : HasNumbers p.possible inc) :
    ∃ own, calcNow (iceInit p.cfg) = .ok own ∧ ∃ C c : ℝ, 0 < c ∧ ∀ T : ℕ, 1 ≤ T → P {ω | ¬ ∃ R,
      rfIncumbentRegion ofVector (rfPartition p T maxDepth (some size) fun k => W k ω).1 inc none = .ok R ∧
      curves R = ((p.cfg.samples.zip (dataCurves own)).filter fun e =>
        decide (∀ᵐ ω ∂P, TreeShares p maxDepth size (ofVector e.1) inc (W 0 ω))).map Prod.snd} ≤ ENNReal.ofReal (C * Real.exp (-c * T)) := by
  refine region_of_votes (o := fun _ => none) (good := fun r => ∀ᵐ ω ∂P, TreeShares p maxDepth size (ofVector r) inc (W 0 ω))
    hp hice hnum hmu hn hg hd hs hw hof hinc fun r hr => ?_
  by_cases hall : ∀ᵐ ω ∂P, TreeShares p maxDepth size (ofVector r) inc (W 0 ω)
  · obtain ⟨-, h2, -⟩ := draw_law hW {w | ¬ TreeShares p maxDepth size (ofVector r) inc w}
    filter_upwards [h2 (ae_iff.1 hall)] with a ha
    refine iff_of_true ?_ hall
    simp only [not_not] at ha
    have : ((List.range a.1).countP fun k => decide (TreeShares p maxDepth size (ofVector r) inc (W k a.2))) = a.1 := by
      rw [List.countP_eq_length.2 fun k _ => by simpa using ha k, List.length_range]
    simp [this]
  · obtain ⟨h1, -, h3⟩ := draw_law hW {w | TreeShares p maxDepth size (ofVector r) inc w}
    simp only [Set.mem_ofPred_eq] at h1
    have hlt : P.real {ω | TreeShares p maxDepth size (ofVector r) inc (W 0 ω)} < 1 := by
      refine lt_of_le_of_ne measureReal_le_one fun h => hall ?_
      have : P {ω | TreeShares p maxDepth size (ofVector r) inc (W 0 ω)} = 1 := by
        rw [Measure.real, ENNReal.toReal_eq_one_iff] at h
        exact h
      exact (prob_compl_eq_zero_iff (hW.meas 0 {w | TreeShares p maxDepth size (ofVector r) inc w})).2 this
    filter_upwards [h1.eventually_lt_const hlt, h3.eventually (eventually_gt_atTop 0)] with a ha h0
    have h0 : (0 : ℝ) < a.1 := by exact_mod_cast h0
    rw [div_lt_one h0] at ha
    refine iff_of_false (fun h => ?_) hall
    simp only [Option.getD_none] at h
    exact ha.not_ge (by exact_mod_cast h)

open Classical in
/-- If every possible draw may occur then these are the samples that no tree separates from the incumbent, whatever its draw is. -/
theorem C191_every_tree (hp : ValidRF p) (hice : p.ice = none) (hnum : ∀ hp ∈ p.possible, hp.isNumerical = true)
    (hmu : RowWise p.cfg.space.length p.cfg.predict mu sd) (hn : p.cfg.samples ≠ []) (hg : 1 ≤ p.cfg.perAxis) (hd : 0 < maxDepth) (hs : 0 < size)
    (hW : RandomTrees P W) (hw : ∀ k ω, ValidDraw p size.toNat (W k ω)) (hpos : ∀ w, ValidDraw p size.toNat w → 0 < P {ω | W 0 ω = w})
    (hof : ∀ r ∈ p.cfg.samples, HasNumbers p.possible (ofVector r)) (hinc : HasNumbers p.possible inc) :
    ∃ own, calcNow (iceInit p.cfg) = .ok own ∧ ∃ C c : ℝ, 0 < c ∧ ∀ T : ℕ, 1 ≤ T → P {ω | ¬ ∃ R,
      rfIncumbentRegion ofVector (rfPartition p T maxDepth (some size) fun k => W k ω).1 inc none = .ok R ∧
      curves R = ((p.cfg.samples.zip (dataCurves own)).filter fun e =>
        decide (∀ w, ValidDraw p size.toNat w → TreeShares p maxDepth size (ofVector e.1) inc w)).map Prod.snd} ≤ ENNReal.ofReal (C * Real.exp (-c * T)) := by
  have hiff : ∀ r, (∀ᵐ ω ∂P, TreeShares p maxDepth size (ofVector r) inc (W 0 ω)) ↔ ∀ w, ValidDraw p size.toNat w → TreeShares p maxDepth size (ofVector r) inc w := by
    intro r
    refine ⟨fun h w hv => ?_, fun h => ae_of_all _ fun ω => h _ (hw 0 ω)⟩
    by_contra hc
    refine (hpos w hv).ne' (measure_mono_null ?_ (ae_iff.1 h))
    intro ω hω hsh
    rw [show W 0 ω = w from hω] at hsh
    exact hc hsh
  have := C191_default hp hice hnum hmu hn hg hd hs hW hw hof hinc
  simp only [hiff] at this
  exact this

open Classical in
/-- almost surely the incumbent region settles -/
theorem C191_settles (hp : ValidRF p) (hice : p.ice = none) (hnum : ∀ hp ∈ p.possible, hp.isNumerical = true)
    (hmu : RowWise p.cfg.space.length p.cfg.predict mu sd) (hn : p.cfg.samples ≠ []) (hg : 1 ≤ p.cfg.perAxis) (hd : 0 < maxDepth) (hs : 0 < size)
    (hW : RandomTrees P W) (hw : ∀ k ω, ValidDraw p size.toNat (W k ω)) (hof : ∀ r ∈ p.cfg.samples, HasNumbers p.possible (ofVector r)) (hinc : HasNumbers p.possible inc)
    {o : ℕ → Int} {α : ℝ} (ho : Tendsto (fun T : ℕ => (o T : ℝ) / T) atTop (𝓝 α))
    (hα : ∀ r ∈ p.cfg.samples, P.real {ω | TreeShares p maxDepth size (ofVector r) inc (W 0 ω)} ≠ α) :
    ∃ own, calcNow (iceInit p.cfg) = .ok own ∧
      (∀ᵐ ω ∂P, ∀ᶠ T : ℕ in atTop, ∃ R, rfIncumbentRegion ofVector (rfPartition p T maxDepth (some size) fun k => W k ω).1 inc (some (o T)) = .ok R ∧
        curves R = ((p.cfg.samples.zip (dataCurves own)).filter fun e =>
          decide (α < P.real {ω | TreeShares p maxDepth size (ofVector e.1) inc (W 0 ω)})).map Prod.snd) ∧
      ∀ᵐ ω ∂P, ∀ᶠ T : ℕ in atTop, ∃ R, rfIncumbentRegion ofVector (rfPartition p T maxDepth (some size) fun k => W k ω).1 inc none = .ok R ∧
        curves R = ((p.cfg.samples.zip (dataCurves own)).filter fun e =>
          decide (∀ᵐ ω ∂P, TreeShares p maxDepth size (ofVector e.1) inc (W 0 ω))).map Prod.snd := by
  obtain ⟨own, h1, h2⟩ := C191_majority hp hice hnum hmu hn hg hd hs hW hw hof hinc ho hα
  obtain ⟨own', h3, h4⟩ := C191_default hp hice hnum hmu hn hg hd hs hW hw hof hinc
  rw [h1] at h3
  obtain rfl := Except.ok.inj h3
  exact ⟨own, h1, almost_of_rate h2, almost_of_rate h4⟩

end region

/-! ### the draws of numpy's generator -/

/-- `rng.integers(0, n, size)`, `rng.integers(0, 2, n_params)` and `rng.choice(...)` with independent uniform results: such draws exist, and every possible draw may occur -/
theorem uniform_trees (p : RF ℝ) (hn : p.cfg.samples ≠ []) (hq : p.possible ≠ []) (size : ℕ) :
    ∃ (Ω : Type) (_ : MeasurableSpace Ω) (P : Measure Ω) (W : ℕ → Ω → ForestDraw), IsProbabilityMeasure P ∧ RandomTrees P W ∧ (∀ k ω, ValidDraw p size (W k ω)) ∧
      ∀ w, ValidDraw p size w → P {ω | W 0 ω = w} = 1 / (p.cfg.samples.length ^ size * (2 ^ p.possible.length * p.possible.length) : ℕ) := by
  obtain ⟨n, hnd⟩ : ∃ n, n = p.cfg.samples.length := ⟨_, rfl⟩
  obtain ⟨q, hqd⟩ : ∃ q, q = p.possible.length := ⟨_, rfl⟩
  have hn0 : 0 < n := by rw [hnd]; exact List.length_pos_iff.2 hn
  have hq0 : 0 < q := by rw [hqd]; exact List.length_pos_iff.2 hq
  rw [← hnd, ← hqd]
  obtain ⟨φ, hφ⟩ : ∃ φ : (Fin size → Fin n) × (Fin q → Bool) × Fin q → ForestDraw,
    φ = fun d => ⟨List.ofFn fun i => (d.1 i).1, List.ofFn d.2.1, d.2.2.1⟩ := ⟨_, rfl⟩
  have hne : Nonempty ((Fin size → Fin n) × (Fin q → Bool) × Fin q) := ⟨fun _ => ⟨0, hn0⟩, fun _ => true, ⟨0, hq0⟩⟩
  let mD : MeasurableSpace ((Fin size → Fin n) × (Fin q → Bool) × Fin q) := ⊤
  have hsing : MeasurableSingletonClass ((Fin size → Fin n) × (Fin q → Bool) × Fin q) := ⟨fun _ => trivial⟩
  obtain ⟨Q, hQ⟩ : ∃ Q : Measure ((Fin size → Fin n) × (Fin q → Bool) × Fin q), Q = uniformOn Set.univ := ⟨_, rfl⟩
  have hQp : IsProbabilityMeasure Q := by rw [hQ]; infer_instance
  have hmap : ∀ i, (Measure.infinitePi fun _ : ℕ => Q).map (fun ω => ω i) = Q := fun i => (measurePreserving_eval_infinitePi (fun _ : ℕ => Q) i).map_eq
  have hind : iIndepFun (fun (i : ℕ) (ω : ℕ → (Fin size → Fin n) × (Fin q → Bool) × Fin q) => ω i) (Measure.infinitePi fun _ : ℕ => Q) :=
    iIndepFun_infinitePi (P := fun _ : ℕ => Q) (X := fun _ x => x) fun _ => measurable_id
  have hms : ∀ k (s : Set ForestDraw), MeasurableSet ((fun ω : ℕ → (Fin size → Fin n) × (Fin q → Bool) × Fin q => φ (ω k)) ⁻¹' s) :=
    fun k s => by
      have h : MeasurableSet (φ ⁻¹' s) := trivial
      exact (measurable_pi_apply k : Measurable fun ω : ℕ → (Fin size → Fin n) × (Fin q → Bool) × Fin q => ω k) h
  have hval : ∀ k (s : Set ForestDraw), (Measure.infinitePi fun _ : ℕ => Q) ((fun ω => φ (ω k)) ⁻¹' s) = Q (φ ⁻¹' s) := by
    intro k s
    rw [← hmap k, Measure.map_apply (measurable_pi_apply k) (show MeasurableSet (φ ⁻¹' s) from trivial)]
    rw [hmap k]
    rfl
  refine ⟨_, inferInstance, Measure.infinitePi fun _ : ℕ => Q, fun k ω => φ (ω k), inferInstance, ⟨hms, ?_, fun k s => by rw [hval, hval]⟩, fun k ω => ?_, fun w hw => ?_⟩
  · let _ : MeasurableSpace ForestDraw := ⊤
    exact hind.comp (fun _ => φ) fun _ => measurable_from_top
  · rw [hφ]
    refine ⟨by simp, fun i hi => ?_, by simp [hqd], by rw [← hqd]; exact (ω k).2.2.2⟩
    obtain ⟨j, rfl⟩ := (List.mem_ofFn' _ _).1 hi
    rw [← hnd]
    exact ((ω k).1 j).2
  · obtain ⟨d, hd⟩ : ∃ d, φ ⁻¹' {w} = {d} := by
      have h1 : ∀ i : Fin size, w.indices[i.1]'(by rw [hw.size]; exact i.2) < n := fun i => by rw [hnd]; exact hw.range _ (List.getElem_mem _)
      refine ⟨⟨fun i => ⟨_, h1 i⟩, fun j => w.mask[j.1]'(by rw [hw.mask, ← hqd]; exact j.2), ⟨w.choice, by rw [hqd]; exact hw.choice⟩⟩, ?_⟩
      ext d
      simp only [Set.mem_preimage, Set.mem_singleton_iff, hφ]
      obtain ⟨a, b, c⟩ := d
      constructor
      · rintro rfl
        simp
      · intro h
        obtain ⟨rfl, rfl, rfl⟩ : a = _ ∧ b = _ ∧ c = _ := by simpa using h
        have e1 : (List.ofFn fun i : Fin size => w.indices[i.1]'(by rw [hw.size]; exact i.2)) = w.indices :=
          List.ext_getElem (by simp [hw.size]) fun _ _ _ => by simp
        have e2 : (List.ofFn fun j : Fin q => w.mask[j.1]'(by rw [hw.mask, ← hqd]; exact j.2)) = w.mask :=
          List.ext_getElem (by simp [hw.mask, hqd]) fun _ _ _ => by simp
        dsimp only
        rw [e1, e2]
    have h1 := hval 0 {w}
    rw [hd, hQ, uniformOn_univ] at h1
    have e : {ω : ℕ → (Fin size → Fin n) × (Fin q → Bool) × Fin q | φ (ω 0) = w} = (fun ω => φ (ω 0)) ⁻¹' {w} := rfl
    rw [e, hQ, h1]
    simp

/-! ### an example -/

section concrete

private def fvA : Hp ℝ := ⟨"a", .float 0 1 false⟩
private def fvB : Hp ℝ := ⟨"b", .float 0 1 false⟩
private noncomputable def fvSd (r : List ℝ) : ℝ := if r.getD 1 0 < 1/2 then 0 else 1
private noncomputable def fvForest : RF ℝ :=
  ⟨⟨[fvA, fvB], [fvA], [[0, 1/8], [0, 7/8]], 2, 3, 3, false, fun X => .ok (X.map fun _ => 0, X.map fvSd)⟩, [fvB], 100, 10, none, none⟩
private noncomputable def fvVector (r : List ℝ) : Config ℝ := ⟨r, [("a", .num (r.getD 0 0)), ("b", .num (r.getD 1 0))]⟩

/-- Two samples, of which every tree draws two: the assumptions hold for uniform draws. -/
example : ∃ (Ω : Type) (_ : MeasurableSpace Ω) (P : Measure Ω) (W : ℕ → Ω → ForestDraw), IsProbabilityMeasure P ∧ RandomTrees P W ∧
    ∃ own, calcNow (iceInit fvForest.cfg) = .ok own ∧ ∃ C c : ℝ, 0 < c ∧ ∀ T : ℕ, 1 ≤ T → P {ω | ¬ ∃ R,
      rfIncumbentRegion fvVector (rfPartition fvForest T 1 (some 2) fun k => W k ω).1 (fvVector [0, 7/8]) none = .ok R ∧
      curves R = ((fvForest.cfg.samples.zip (dataCurves own)).filter fun e => @decide
        (∀ w, ValidDraw fvForest 2 w → TreeShares fvForest 1 2 (fvVector e.1) (fvVector [0, 7/8]) w) (Classical.propDecidable _)).map Prod.snd} ≤
      ENNReal.ofReal (C * Real.exp (-c * T)) := by
  have hv : ValidRF fvForest :=
    ⟨⟨by simp [ConfigSpace.WF, fvForest, fvA, fvB], by simp [fvForest], by simp [fvForest], by simp [fvForest], by simp [fvForest], rfl, rfl⟩, rfl,
      by simp [fvForest, fvA, fvB], by simp [fvForest]⟩
  have hnum : ∀ r, HasNumbers fvForest.possible (fvVector r) := by
    intro r hp hm
    obtain rfl : hp = fvB := by simpa [fvForest] using hm
    exact ⟨r.getD 1 0, by simp [fvVector, Config.get?, fvB]⟩
  have hb : ∀ hp ∈ fvForest.possible, hp.isNumerical = true := by
    intro hp hm
    obtain rfl : hp = fvB := by simpa [fvForest] using hm
    rfl
  obtain ⟨Ω, mΩ, P, W, hP, hW, hw, hpos⟩ := uniform_trees fvForest (by simp [fvForest]) (by simp [fvForest]) 2
  refine ⟨Ω, mΩ, P, W, hP, hW, C191_every_tree (size := 2) hv rfl hb (fun X _ _ => rfl) (by simp [fvForest]) (by simp [fvForest])
    one_pos two_pos hW hw (fun w h => ?_) (fun r _ => hnum r) (hnum _)⟩
  rw [hpos w h]
  simp [fvForest]

local instance : Transc ℚ := ⟨id, id⟩

private def fvDraw (k : Nat) : ForestDraw := ⟨[[0, 1], [1, 0], [0, 0], [1, 1]].getD (k % 4) [], [true], 0⟩
private def fvRational : RF ℚ := ⟨⟨[⟨"a", .float 0 1 false⟩, ⟨"b", .float 0 1 false⟩], [⟨"a", .float 0 1 false⟩], [[0, 1/8], [0, 7/8]], 2, 3, 3, false,
  fun X => .ok (X.map fun _ => 0, X.map fun r => if r.getD 1 0 < 1/2 then 0 else 1)⟩, [⟨"b", .float 0 1 false⟩], 100, 10, none, none⟩

/-- The two samples are separated by half of the possible draws: of eight trees, four have a leaf with both of them. -/
example : ([none, some 6, some 5, some 4, some 3].map fun o => (rfIncumbentRegion (fun r => ⟨r, [("a", .num (r.getD 0 0)), ("b", .num (r.getD 1 0))]⟩)
      (rfPartition fvRational 8 1 (some 2) fvDraw).1 ⟨[0, 7/8], [("a", .num 0), ("b", .num (7/8))]⟩ o).map fun R => R.v.map fun v => v.getD 0 0) =
    [.ok [1], .ok [1], .ok [1], .ok [0, 1], .ok [0, 1]] := by decide +kernel

end concrete

end PyPDP
