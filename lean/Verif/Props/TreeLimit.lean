/-
C189: every distribution without ties has a tree, and the trees of its samples tend to it.
-/
import Verif.Props.TreeRate
import Mathlib.Data.Prod.Lex

namespace PyPDP
open Spec MeasureTheory ProbabilityTheory Filter Topology

/-- Tests of the regions that arise from splits: every split is at one of `N` thresholds of a hyperparameter that may be split. -/
inductive Spec.SplitRegion (space possible : List (Hp ℝ)) (N : Nat) : (List ℝ → Bool) → Prop
  | all : Spec.SplitRegion space possible N fun _ => true
  | lower {A} {hp : Hp ℝ} {f j : Nat} : hp ∈ possible → IsFeature space hp f → 1 ≤ j → j ≤ N → Spec.SplitRegion space possible N A →
      Spec.SplitRegion space possible N (testBelow A f (threshold N j))
  | upper {A} {hp : Hp ℝ} {f j : Nat} : hp ∈ possible → IsFeature space hp f → 1 ≤ j → j ≤ N → Spec.SplitRegion space possible N A →
      Spec.SplitRegion space possible N (testAbove A f (threshold N j))

/-- In no region two splits are the cheapest ones, except splits that are almost surely the same. -/
def Spec.NoTies {F : Nat} (μ : Measure (Fin F → ℝ)) (grid : List (List ℝ)) (v : List ℝ → List ℝ → ℝ) (space possible : List (Hp ℝ)) (N : Nat) : Prop :=
  ∀ A, SplitRegion space possible N A → ∀ i j hp f i' j' hp' f', IsPopulationCandidate μ space possible N A i j hp f → IsPopulationCandidate μ space possible N A i' j' hp' f' →
    (∀ i'' j'' hp'' f'', IsPopulationCandidate μ space possible N A i'' j'' hp'' f'' → populationCost μ grid v N A f j ≤ populationCost μ grid v N A f'' j'') →
    populationCost μ grid v N A f' j' = populationCost μ grid v N A f j →
    μ {x | A (List.ofFn x) = true ∧ ¬ ((List.ofFn x).getD f' 0 ≤ threshold N j' ↔ (List.ofFn x).getD f 0 ≤ threshold N j)} = 0

section exist
variable {F : Nat} {μ : Measure (Fin F → ℝ)} {grid : List (List ℝ)} {v : List ℝ → List ℝ → ℝ} {space possible : List (Hp ℝ)} {N : Nat}

/-- a region with a split has a best one -/
theorem best_exists (h : NoTies μ grid v space possible N) {A : List ℝ → Bool} (hA : SplitRegion space possible N A) {i j : Nat} {hp : Hp ℝ} {f : Nat}
    (hc : IsPopulationCandidate μ space possible N A i j hp f) : ∃ i j hp f, IsPopulationBest μ grid v space possible N A i j hp f := by
  classical
  obtain ⟨T, hT⟩ : ∃ T : Finset (Nat × Nat × Nat), T = ((Finset.range possible.length) ×ˢ ((Finset.range (N + 1)) ×ˢ (Finset.range space.length))).filter
    fun c => ∃ hp, IsPopulationCandidate μ space possible N A c.1 c.2.1 hp c.2.2 := ⟨_, rfl⟩
  have hmem : ∀ {i j : Nat} {hp : Hp ℝ} {f : Nat}, IsPopulationCandidate μ space possible N A i j hp f → (i, j, f) ∈ T := by
    intro i j hp f hc
    rw [hT, Finset.mem_filter]
    refine ⟨?_, hp, hc⟩
    simp only [Finset.mem_product, Finset.mem_range]
    refine ⟨(List.getElem?_eq_some_iff.1 hc.hp_at).1, by have := hc.le; omega, ?_⟩
    obtain ⟨x, hx, -⟩ := hc.feature
    exact (List.getElem?_eq_some_iff.1 hx).1
  obtain ⟨⟨i0, j0, f0⟩, h0, hmin⟩ := Finset.exists_min_image T (fun c => toLex (populationCost μ grid v N A c.2.2 c.2.1, toLex (c.1, c.2.1))) ⟨_, hmem hc⟩
  obtain ⟨hp0, hc0⟩ := (Finset.mem_filter.1 (hT ▸ h0)).2
  refine ⟨i0, j0, hp0, f0, hc0, fun i' j' hp' f' hc' => ?_⟩
  have := hmin _ (hmem hc')
  simp only [Prod.Lex.toLex_le_toLex] at this
  rcases this with h1 | ⟨h1, h2⟩
  · exact .inl h1
  · refine .inr ⟨h A hA _ _ _ _ _ _ _ _ hc0 hc' (fun i j hp f hc => ?_) h1.symm, h2⟩
    have := hmin _ (hmem hc)
    simp only [Prod.Lex.toLex_le_toLex] at this
    rcases this with h3 | ⟨h3, -⟩
    · exact h3.le
    · exact h3.le

/-- without ties there is a tree -/
theorem tree_exists (h : NoTies μ grid v space possible N) (depth : Int) {A : List ℝ → Bool} (hA : SplitRegion space possible N A) (conds : List (Cond ℝ)) (k : Nat) :
    ∃ R, PopulationTree μ grid v space possible N depth A conds k R := by
  obtain ⟨d, hd⟩ : ∃ d : Nat, depth ≤ k + d := ⟨(depth - k).toNat, by omega⟩
  induction d generalizing A conds k with
  | zero => exact ⟨_, .leaf (.inl (by omega))⟩
  | succ d ih =>
    by_cases hk : k < depth
    swap
    · exact ⟨_, .leaf (.inl (by omega))⟩
    by_cases hc : ∃ i j hp f, IsPopulationCandidate μ space possible N A i j hp f
    · obtain ⟨i, j, hp, f, hc⟩ := hc
      obtain ⟨i, j, hp, f, hb⟩ := best_exists h hA hc
      have hmp := List.mem_of_getElem? hb.cand.hp_at
      obtain ⟨Ll, hl⟩ := ih (.lower hmp hb.cand.feature hb.cand.one_le hb.cand.le hA) (conds ++ [⟨hp, .flt (threshold N j), some true⟩]) (k + 1) (by push_cast; push_cast at hd; omega)
      obtain ⟨Lr, hr⟩ := ih (.upper hmp hb.cand.feature hb.cand.one_le hb.cand.le hA) (conds ++ [⟨hp, .flt (threshold N j), some false⟩]) (k + 1) (by push_cast; push_cast at hd; omega)
      exact ⟨_, .branch hk hb hl hr⟩
    · push Not at hc
      exact ⟨_, .leaf (.inr hc)⟩

end exist

theorem forall₂_conds {R : List ((List ℝ → Bool) × List (Cond ℝ))} {leaves : List (Node ℝ)} {Φ : ((List ℝ → Bool) × List (Cond ℝ)) → Node ℝ → Prop}
    (h : List.Forall₂ (fun q m => m.conds = q.2 ∧ Φ q m) R leaves) : leaves.map Node.conds = R.map Prod.snd := by
  induction h with
  | nil => rfl
  | cons h _ ih => rw [List.map_cons, List.map_cons, h.1, ih]

variable {Ω : Type} [MeasurableSpace Ω] {P : Measure Ω} [IsProbabilityMeasure P] {space : ConfigSpace ℝ} {X : ℕ → Ω → Fin space.length → ℝ}
  {grid : List (List ℝ)} {mu sd : List ℝ → ℝ} {N minPoints : Nat}

/-- **C189** The tree settles. Unless the cheapest split of some region is not unique, there is one list of conditions such that almost surely, from
some number of samples on, the leaves have exactly these conditions: the limit depends neither on the samples drawn nor on `min_points_per_region`. -/
theorem C189_settles {predict : Predict ℝ} {sel : Selection ℝ} {selected : List (Hp ℝ)} {g : Nat} (h : PdpSetting space predict sel selected g grid mu sd)
    {notSplittable : Option (Selection ℝ)} {ns : List (Hp ℝ)} (hns : notSplittableHps notSplittable space = .ok ns) (hX : IsRandomSample P X)
    (hsd : Measurable fun x : Fin space.length → ℝ => sd (List.ofFn x))
    (hi : ∀ t ∈ grid, Integrable (fun x : Fin space.length → ℝ => (sd (atPoint space selected t (List.ofFn x)) ^ 2) ^ 2) (P.map (X 0)))
    (hties : NoTies (P.map (X 0)) grid (fun t r => sd (atPoint space selected t r) ^ 2) space (possibleSplits space selected ns) N)
    {depth : Int} (hdep : 0 < depth) :
    ∃ conds : List (List (Cond ℝ)), ∀ minPoints ≥ 1, ∀ᵐ ω ∂P, ∃ n₀, ∀ n ≥ n₀, ∃ p leaves,
      dtInit space predict sel (firstSamples X n ω) g N minPoints notSplittable = .ok p ∧ (dtPartition p depth).2 = .ok leaves ∧ leaves.map Node.conds = conds := by
  obtain ⟨R, hR⟩ := tree_exists hties depth .all [] 0
  refine ⟨R.map Prod.snd, fun minPoints hmp => ?_⟩
  filter_upwards [C186_tree h hns hX hsd hi hmp hdep hR] with ω hω
  obtain ⟨n₀, hn⟩ := hω 1 one_pos
  refine ⟨n₀, fun n hn' => ?_⟩
  obtain ⟨p, leaves, h1, h2, h3⟩ := hn n hn'
  exact ⟨p, leaves, h1, h2, forall₂_conds h3⟩

/-- with independent samples and bounded standard deviations, the probability that `n` samples do not suffice decreases exponentially -/
theorem C189_rate {predict : Predict ℝ} {sel : Selection ℝ} {selected : List (Hp ℝ)} {g : Nat} (h : PdpSetting space predict sel selected g grid mu sd)
    {notSplittable : Option (Selection ℝ)} {ns : List (Hp ℝ)} (hns : notSplittableHps notSplittable space = .ok ns) (hX : IsRandomSample P X) (hind : iIndepFun X P)
    (hsd : Measurable fun x : Fin space.length → ℝ => sd (List.ofFn x)) {B : ℝ}
    (hB : ∀ t ∈ grid, ∀ᵐ x ∂(P.map (X 0)), |sd (atPoint space selected t (List.ofFn x))| ≤ B)
    (hties : NoTies (P.map (X 0)) grid (fun t r => sd (atPoint space selected t r) ^ 2) space (possibleSplits space selected ns) N)
    {depth : Int} (hdep : 0 < depth) :
    ∃ conds : List (List (Cond ℝ)), ∀ minPoints ≥ 1, ∃ C c : ℝ, 0 < c ∧ ∀ n : ℕ, P {ω | ¬ ∃ p leaves,
      dtInit space predict sel (firstSamples X n ω) g N minPoints notSplittable = .ok p ∧ (dtPartition p depth).2 = .ok leaves ∧ leaves.map Node.conds = conds} ≤
      ENNReal.ofReal (C * Real.exp (-c * n)) := by
  obtain ⟨R, hR⟩ := tree_exists hties depth .all [] 0
  refine ⟨R.map Prod.snd, fun minPoints hmp => ?_⟩
  obtain ⟨C, c, hc, h⟩ := C188_exponential h hns hX hind hsd hB hmp hdep hR one_pos
  refine ⟨C, c, hc, fun n => le_trans (measure_mono ?_) (h n)⟩
  rintro ω hω ⟨p, leaves, h1, h2, h3⟩
  exact hω ⟨p, leaves, h1, h2, forall₂_conds h3⟩

/-! ### example: the surrogate with two standard deviations -/

section half
variable {a b : ℝ}

theorem half_tests (l h : Nat) {A : List ℝ → Bool}
    (hA : ∀ x : Fin stSpace.length → ℝ, A (List.ofFn x) = true ↔ (l = 0 ∨ (l : ℝ) / 4 < x ⟨1, by simp [stSpace]⟩) ∧ (h = 4 ∨ x ⟨1, by simp [stSpace]⟩ ≤ (h : ℝ) / 4)) (j : Nat) (x : Fin stSpace.length → ℝ) :
    (testBelow A 1 (threshold 3 j) (List.ofFn x) = true ↔ (l = 0 ∨ (l : ℝ) / 4 < x ⟨1, by simp [stSpace]⟩) ∧ (h = 4 ∨ x ⟨1, by simp [stSpace]⟩ ≤ (h : ℝ) / 4) ∧ x ⟨1, by simp [stSpace]⟩ ≤ (j : ℝ) / 4) ∧
    (testAbove A 1 (threshold 3 j) (List.ofFn x) = true ↔ (l = 0 ∨ (l : ℝ) / 4 < x ⟨1, by simp [stSpace]⟩) ∧ (h = 4 ∨ x ⟨1, by simp [stSpace]⟩ ≤ (h : ℝ) / 4) ∧ (j : ℝ) / 4 < x ⟨1, by simp [stSpace]⟩) := by
  have e : (threshold 3 j : ℝ) = (j : ℝ) / 4 := by norm_num [threshold]
  have ex : (List.ofFn x).getD 1 0 = x ⟨1, by simp [stSpace]⟩ := by rw [half_ofFn]; rfl
  simp only [testBelow, testAbove, Bool.and_eq_true, decide_eq_true_eq, ex, e, hA, and_assoc, and_self]

/-- its regions are intervals of the second hyperparameter -/
theorem half_regions {A : List ℝ → Bool} (hA : SplitRegion stSpace (possibleSplits stSpace [⟨"x1", .float (-5) 5 false⟩] []) 3 A) :
    ∃ l h : Nat, l ≤ 3 ∧ 1 ≤ h ∧ h ≤ 4 ∧
      ∀ x : Fin stSpace.length → ℝ, A (List.ofFn x) = true ↔ (l = 0 ∨ (l : ℝ) / 4 < x ⟨1, by simp [stSpace]⟩) ∧ (h = 4 ∨ x ⟨1, by simp [stSpace]⟩ ≤ (h : ℝ) / 4) := by
  rw [half_possible] at hA
  induction hA with
  | all => exact ⟨0, 4, by norm_num, by norm_num, le_rfl, fun x => by simp⟩
  | @lower A hp f j hp' hf h1 h3 _ ih =>
    obtain ⟨l, h, hl, hh, hh4, hA⟩ := ih
    obtain rfl := (half_feature (List.mem_singleton.1 hp')).1 hf
    refine ⟨l, min h j, hl, by omega, by omega, fun x => ?_⟩
    rw [(half_tests l h hA j x).1]
    refine and_congr_right fun _ => ?_
    rcases le_total h j with hj | hj
    · rw [min_eq_left hj]
      have : (h : ℝ) ≤ j := by exact_mod_cast hj
      constructor
      · exact fun h => h.1
      · rintro (h5 | h5)
        · omega
        · exact ⟨.inr h5, by linarith⟩
    · rw [min_eq_right hj]
      have : (j : ℝ) ≤ h := by exact_mod_cast hj
      constructor
      · exact fun h => .inr h.2
      · rintro (h5 | h5)
        · omega
        · exact ⟨.inr (by linarith), h5⟩
  | @upper A hp f j hp' hf h1 h3 _ ih =>
    obtain ⟨l, h, hl, hh, hh4, hA⟩ := ih
    obtain rfl := (half_feature (List.mem_singleton.1 hp')).1 hf
    refine ⟨max l j, h, by omega, hh, hh4, fun x => ?_⟩
    rw [(half_tests l h hA j x).2, and_left_comm, and_comm]
    refine and_congr_left fun _ => ?_
    rcases le_total l j with hj | hj
    · rw [max_eq_right hj]
      have : (l : ℝ) ≤ j := by exact_mod_cast hj
      constructor
      · exact fun h => .inr h.2
      · rintro (h5 | h5)
        · omega
        · exact ⟨.inr (by linarith), h5⟩
    · rw [max_eq_left hj]
      have : (j : ℝ) ≤ l := by exact_mod_cast hj
      constructor
      · exact fun h => h.1
      · rintro (h5 | h5)
        · omega
        · exact ⟨.inr h5, by linarith⟩

theorem split_measurable {space possible : List (Hp ℝ)} {N : Nat} {A : List ℝ → Bool} (hA : SplitRegion space possible N A) (F : Nat) : MeasurableSet (passing (F := F) A) := by
  induction hA with
  | all =>
    have : passing (F := F) (fun _ => true) = Set.univ := by ext x; simp [passing]
    rw [this]
    exact MeasurableSet.univ
  | lower _ _ _ _ _ ih => exact (passing_measurable_below ih _ _).1
  | upper _ _ _ _ _ ih => exact (passing_measurable_below ih _ _).2

/-- in no region two splits are the cheapest ones -/
theorem half_noTies (hab : a ^ 2 ≠ b ^ 2) : NoTies halfMeasure halfGrid (halfV a b) stSpace (possibleSplits stSpace [⟨"x1", .float (-5) 5 false⟩] []) 3 := by
  intro A hA i j hp f i' j' hp' f' hc hc' hmin heq
  obtain ⟨l, h, hl, hh, hh4, hreg⟩ := half_regions hA
  have hmeas := fun f j => passing_measurable_below (split_measurable hA stSpace.length) f (threshold 3 j)
  have hone : ∀ {i j : Nat} {hp : Hp ℝ} {f : Nat}, IsPopulationCandidate halfMeasure stSpace (possibleSplits stSpace [⟨"x1", .float (-5) 5 false⟩] []) 3 A i j hp f →
      f = 1 ∧ l < j ∧ j < h := by
    intro i j hp f hc
    have hm := List.mem_of_getElem? hc.hp_at
    rw [half_possible] at hm
    obtain rfl := (half_feature (List.mem_singleton.1 hm)).1 hc.feature
    have hj1 := hc.one_le
    have hj3 := hc.le
    refine ⟨rfl, ?_, ?_⟩
    · by_contra hn
      have hlj : (j : ℝ) ≤ l := by exact_mod_cast not_lt.1 hn
      have : passing (F := stSpace.length) (testBelow A 1 (threshold 3 j)) = ∅ := by
        ext x
        simp only [passing, Set.mem_ofPred_eq, (half_tests l h hreg j x).1, Set.mem_empty_iff_false, iff_false]
        rintro ⟨h1 | h1, -, h2⟩
        · omega
        · linarith
      have hp := hc.left_pos
      rw [this] at hp
      simp at hp
    · by_contra hn
      have hlj : (h : ℝ) ≤ j := by exact_mod_cast not_lt.1 hn
      have : passing (F := stSpace.length) (testAbove A 1 (threshold 3 j)) = ∅ := by
        ext x
        simp only [passing, Set.mem_ofPred_eq, (half_tests l h hreg j x).2, Set.mem_empty_iff_false, iff_false]
        rintro ⟨-, h1 | h1, h2⟩
        · omega
        · linarith
      have hp := hc.right_pos
      rw [this] at hp
      simp at hp
  obtain ⟨rfl, j1, j2⟩ := hone hc
  obtain ⟨rfl, j1', j2'⟩ := hone hc'
  have hjj : j = j' := by
    by_cases hin : l < 2 ∧ 2 < h
    swap
    · omega
    have hl1 : (l : ℝ) ≤ 1 := by exact_mod_cast (by omega : l ≤ 1)
    have hh3 : (3 : ℝ) ≤ h := by exact_mod_cast (by omega : 3 ≤ h)
    have hposq : ∀ S : Set (Fin stSpace.length → ℝ), 0 < halfMeasure S → 0 < halfMeasure.real S := fun S h => ENNReal.toReal_pos h.ne' (measure_ne_top _ _)
    have I1 := half_interval (a := 1 / 4) (b := 1 / 2) (by norm_num) (by norm_num) (by norm_num)
    have I2 := half_interval (a := 1 / 2) (b := 3 / 4) (by norm_num) (by norm_num) (by norm_num)
    have b0 : 0 < halfMeasure.real (passing (testBelow A 1 (threshold 3 2))) := by
      refine hposq _ (lt_of_lt_of_le I1 (measure_mono fun x hx => ?_))
      obtain ⟨h1, h2⟩ : (1 / 4 : ℝ) < x ⟨1, by simp [stSpace]⟩ ∧ x ⟨1, by simp [stSpace]⟩ ≤ (1 / 2 : ℝ) := hx
      refine (half_tests l h hreg 2 x).1.2 ⟨.inr (by linarith), .inr (by linarith), by push_cast; linarith⟩
    have a0 : 0 < halfMeasure.real (passing (testAbove A 1 (threshold 3 2))) := by
      refine hposq _ (lt_of_lt_of_le I2 (measure_mono fun x hx => ?_))
      obtain ⟨h1, h2⟩ : (1 / 2 : ℝ) < x ⟨1, by simp [stSpace]⟩ ∧ x ⟨1, by simp [stSpace]⟩ ≤ (3 / 4 : ℝ) := hx
      refine (half_tests l h hreg 2 x).2.2 ⟨.inr (by linarith), .inr (by linarith), by push_cast; linarith⟩
    have hcost : populationCost halfMeasure halfGrid (halfV a b) 3 A 1 2 = 0 := by
      unfold populationCost
      rw [half_zero (c := a ^ 2) b0 (hmeas _ _).1 fun x hx => ?_, half_zero (c := b ^ 2) a0 (hmeas _ _).2 fun x hx => ?_, add_zero]
      · have := ((half_tests l h hreg 2 x).2.1 hx).2.2
        push_cast at this
        exact if_neg (by linarith)
      · have := ((half_tests l h hreg 2 x).1.1 hx).2.2
        push_cast at this
        exact if_pos (by linarith)
    have hother : ∀ j : Nat, l < j → j < h → j ≠ 2 → 0 < populationCost halfMeasure halfGrid (halfV a b) 3 A 1 j := by
      intro j h1 h2 h3
      rcases lt_or_gt_of_ne h3 with h4 | h4
      · have hj : (j : ℝ) ≤ 1 := by exact_mod_cast (by omega : j ≤ 1)
        refine add_pos_of_nonneg_of_pos (half_loss_nonneg _) (half_positive hab ?_ ?_)
        · refine lt_of_lt_of_le I1 (measure_mono fun x hx => ?_)
          obtain ⟨h1, h2⟩ : (1 / 4 : ℝ) < x ⟨1, by simp [stSpace]⟩ ∧ x ⟨1, by simp [stSpace]⟩ ≤ (1 / 2 : ℝ) := hx
          exact ⟨(half_tests l h hreg j x).2.2 ⟨.inr (by linarith), .inr (by linarith), by linarith⟩, h2⟩
        · refine lt_of_lt_of_le I2 (measure_mono fun x hx => ?_)
          obtain ⟨h1, h2⟩ : (1 / 2 : ℝ) < x ⟨1, by simp [stSpace]⟩ ∧ x ⟨1, by simp [stSpace]⟩ ≤ (3 / 4 : ℝ) := hx
          exact ⟨(half_tests l h hreg j x).2.2 ⟨.inr (by linarith), .inr (by linarith), by linarith⟩, h1⟩
      · have hj : (3 : ℝ) ≤ j := by exact_mod_cast (by omega : 3 ≤ j)
        refine add_pos_of_pos_of_nonneg (half_positive hab ?_ ?_) (half_loss_nonneg _)
        · refine lt_of_lt_of_le I1 (measure_mono fun x hx => ?_)
          obtain ⟨h1, h2⟩ : (1 / 4 : ℝ) < x ⟨1, by simp [stSpace]⟩ ∧ x ⟨1, by simp [stSpace]⟩ ≤ (1 / 2 : ℝ) := hx
          exact ⟨(half_tests l h hreg j x).1.2 ⟨.inr (by linarith), .inr (by linarith), by linarith⟩, h2⟩
        · refine lt_of_lt_of_le I2 (measure_mono fun x hx => ?_)
          obtain ⟨h1, h2⟩ : (1 / 2 : ℝ) < x ⟨1, by simp [stSpace]⟩ ∧ x ⟨1, by simp [stSpace]⟩ ≤ (3 / 4 : ℝ) := hx
          exact ⟨(half_tests l h hreg j x).1.2 ⟨.inr (by linarith), .inr (by linarith), by linarith⟩, h1⟩
    have hle := hmin i 2 hp 1 ⟨hc.hp_at, hc.feature, by norm_num, by norm_num, b0, a0⟩
    rw [hcost] at hle
    have e1 : j = 2 := by
      by_contra hn
      exact absurd hle (not_le.2 (hother j j1 j2 hn))
    have e2 : j' = 2 := by
      by_contra hn
      rw [← heq] at hle
      exact absurd hle (not_le.2 (hother j' j1' j2' hn))
    rw [e1, e2]
  subst hjj
  simp

end half

/-- the conditions of the leaves settle, for every depth -/
example (depth : Int) (hd : 0 < depth) : ∃ conds : List (List (Cond ℝ)), ∀ minPoints ≥ 1, ∀ᵐ ω ∂(uniformSamples stSpace.length), ∃ n₀, ∀ n ≥ n₀, ∃ p leaves,
    dtInit stSpace (fun rows => .ok (rows.map fun _ => 0, rows.map (halfSd 0 1))) (.many [.name "x1"]) (firstSamples (fun i ω => ω i) n ω) 3 3 minPoints none = .ok p ∧
    (dtPartition p depth).2 = .ok leaves ∧ leaves.map Node.conds = conds :=
  C189_settles (notSplittable := none) (ns := []) halfSetting rfl (uniformSamples_spec stSpace.length).1 half_measurable
    (fun t ht => by
      have := half_bounded (a := 0) (b := 1) (t := t) ht 0
      simpa only [sub_zero, halfV, halfMeasure] using this) (half_noTies (a := 0) (b := 1) (by norm_num)) hd

end PyPDP
