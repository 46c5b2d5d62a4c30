/-
C170: how good the incumbent of a random search is.
-/
import Verif.Props.RandomGrid
import Verif.Spec.RandomSearch
import Mathlib.Probability.Independence.InfinitePi
import Mathlib.Analysis.SpecialFunctions.Log.Basic

namespace PyPDP
open Spec MeasureTheory ProbabilityTheory Filter
variable {Ω C : Type} [MeasurableSpace Ω] [MeasurableSpace C]

omit [MeasurableSpace C] in
/-- the calls of a random sampler draw one configuration after the other -/
theorem randomSearch_run (o : Objective C ℝ) (hno : ∀ t c, o.raises t c = none) (x : ℕ → C) :
    ∀ (ns : List Nat) (_ : ∀ n ∈ ns, 2 ≤ n) (s : SamplerState C ℝ Nat) (_ : s.cache = []),
      (srun (randomSampler o (streamDrawer x)) s (ns.map fun n : Nat => .sample n)).1.configs
        = s.configs ++ (List.range ns.sum).map (fun i => x (s.extra + i)) ∧
      (srun (randomSampler o (streamDrawer x)) s (ns.map fun n : Nat => .sample n)).1.ys
        = s.ys ++ (List.range ns.sum).map (fun i => o.value (x (s.extra + i))) ∧
      ∀ e ∈ (srun (randomSampler o (streamDrawer x)) s (ns.map fun n : Nat => .sample n)).2, e = none := by
  intro ns
  induction ns with
  | nil => intro _ s _; simp [srun]
  | cons n ns ih =>
    intro hns s hs
    have h1 := C26_drawn_partial o (streamDrawer x) hno s hs n (hns n (by simp))
    obtain ⟨i1, i2, i3⟩ := ih (fun m hm => hns m (List.mem_cons_of_mem _ hm))
      (⟨s.configs ++ ((streamDrawer x).draw s.extra n).1, s.ys ++ ((streamDrawer x).draw s.extra n).1.map o.value, [], s.calls + n,
        ((streamDrawer x).draw s.extra n).2⟩ : SamplerState C ℝ Nat) rfl
    have hstep : sstep (randomSampler o (streamDrawer x)) s (.sample n) = randomSampler o (streamDrawer x) s n := rfl
    simp only [List.map_cons, srun, hstep, h1]
    simp only [streamDrawer, List.map_map] at i1 i2 i3 ⊢
    have hr : ∀ {α : Type} (f : ℕ → α), (List.range (n :: ns).sum).map f = (List.range n).map f ++ (List.range ns.sum).map fun i => f (n + i) := by
      intro α f
      rw [List.sum_cons, List.range_add, List.map_append, List.map_map]
      rfl
    refine ⟨?_, ?_, ?_⟩
    · rw [i1, hr]
      simp [Nat.add_assoc, List.append_assoc]
    · rw [i2, hr]
      simp [Nat.add_assoc, List.append_assoc, Function.comp_def]
    · intro e he
      rcases List.mem_cons.1 he with rfl | he
      · rfl
      · exact i3 e he

/-- all of the first `N` configurations lie in `A` -/
theorem Spec.IsIid.all {P : Measure Ω} [IsProbabilityMeasure P] {X : ℕ → Ω → C} (hX : IsIid P X) {A : Set C} (hA : MeasurableSet A) (N : Nat) :
    P.real {ω | ∀ i < N, X i ω ∈ A} = P.real {ω | X 0 ω ∈ A} ^ N := by
  have h1 : {ω | ∀ i < N, X i ω ∈ A} = ⋂ i ∈ Finset.range N, X i ⁻¹' A := by
    ext ω; simp
  have h2 := hX.indep.measure_inter_preimage_eq_mul (S := Finset.range N) (sets := fun _ => A) (fun _ _ => hA)
  have h3 : ∀ i, P (X i ⁻¹' A) = P (X 0 ⁻¹' A) := fun i => by
    rw [← Measure.map_apply (hX.measurable i) hA, ← Measure.map_apply (hX.measurable 0) hA, hX.same i]
  rw [h1, measureReal_def, h2]
  simp only [h3, Finset.prod_const, Finset.card_range, ENNReal.toReal_pow]
  rfl

omit [MeasurableSpace C] in
/-- the best value after the calls -/
theorem randomSearch_best (o : Objective C ℝ) (hno : ∀ t c, o.raises t c = none) (minimize : Bool) (x : ℕ → C) {ns : List Nat}
    (hns : ∀ n ∈ ns, 2 ≤ n) (hne : ns ≠ []) :
    ∃ c v, incumbent minimize (srun (randomSampler o (streamDrawer x)) ⟨[], [], [], 0, 0⟩ (ns.map fun n : Nat => .sample n)).1 = .ok (some c, some v) ∧
      o.value c = v ∧ (∃ i < ns.sum, x i = c) ∧ ∀ i < ns.sum, ¬ Better minimize (o.value (x i)) v := by
  obtain ⟨h1, h2, -⟩ := randomSearch_run o hno x ns hns ⟨[], [], [], 0, 0⟩ rfl
  obtain ⟨s, hs⟩ : ∃ s, s = (srun (randomSampler o (streamDrawer x)) ⟨[], [], [], 0, 0⟩ (ns.map fun n : Nat => .sample n)).1 := ⟨_, rfl⟩
  rw [← hs] at h1 h2 ⊢
  simp only [List.nil_append, Nat.zero_add] at h1 h2
  have hpos : 0 < ns.sum := by
    obtain ⟨n, ns', rfl⟩ := List.exists_cons_of_ne_nil hne
    have := hns n (by simp)
    simp only [List.sum_cons]; omega
  obtain ⟨i, c, v, e1, e2, e3, e4, -⟩ := (C21_incumbent minimize s (by rw [h1, h2]; simp)).2 (by rw [h2]; simp; omega)
  refine ⟨c, v, e1, ?_, ?_, ?_⟩
  · rw [h1] at e2
    rw [h2] at e3
    obtain ⟨j, hj, rfl⟩ : ∃ j, (List.range ns.sum)[i]? = some j ∧ x j = c := by simpa using e2
    rw [List.getElem?_map, hj] at e3
    simpa using e3
  · rw [h1] at e2
    obtain ⟨j, hj, hc⟩ := List.mem_map.1 (List.mem_of_getElem? e2)
    exact ⟨j, List.mem_range.1 hj, hc⟩
  · intro j hj
    refine e4 _ ?_
    rw [h2]
    exact List.mem_map.2 ⟨j, List.mem_range.2 hj, rfl⟩

/-- `a` is at least as good as `v`, or better -/
def reaches (minimize strict : Bool) (a v : ℝ) : Prop :=
  match minimize, strict with
  | true, true => a < v
  | true, false => a ≤ v
  | false, true => v < a
  | false, false => v ≤ a

theorem measurableSet_reaches {f : C → ℝ} (hf : Measurable f) (minimize strict : Bool) (v : ℝ) : MeasurableSet {c | reaches minimize strict (f c) v} := by
  cases minimize <;> cases strict <;> simp only [reaches]
  · exact measurableSet_le measurable_const hf
  · exact measurableSet_lt measurable_const hf
  · exact measurableSet_le hf measurable_const
  · exact measurableSet_lt hf measurable_const

omit [MeasurableSpace C] in
/-- the incumbent reaches a value exactly if one of the drawn configurations does -/
theorem reaches_best {minimize : Bool} {f : C → ℝ} {x : ℕ → C} {N : Nat} {c : C} {w : ℝ} (hw : f c = w) (hc : ∃ i < N, x i = c)
    (hb : ∀ i < N, ¬ Better minimize (f (x i)) w) (strict : Bool) (v : ℝ) :
    reaches minimize strict w v ↔ ¬ ∀ i < N, ¬ reaches minimize strict (f (x i)) v := by
  obtain ⟨i, hi, rfl⟩ := hc
  subst hw
  constructor
  · intro h hall
    exact hall i hi h
  · intro h
    push Not at h
    obtain ⟨j, hj, hr⟩ := h
    have := hb j hj
    cases minimize <;> cases strict <;> simp only [reaches, Better, if_true, if_false, Bool.false_eq_true, gt_iff_lt, not_lt] at * <;> linarith

/-- **C170** How good the incumbent of a random search is: if the configurations are drawn independently from one distribution, the probability that the incumbent
misses a value after `N` points is the `N`-th power of the probability that a single configuration misses it. -/
theorem C170_distribution {P : Measure Ω} [IsProbabilityMeasure P] {X : ℕ → Ω → C} (hX : IsIid P X) (o : Objective C ℝ) (hno : ∀ t c, o.raises t c = none)
    (hf : Measurable o.value) (minimize : Bool) {ns : List Nat} (hns : ∀ n ∈ ns, 2 ≤ n) (hne : ns ≠ []) :
    ∃ (inc : Ω → C) (best : Ω → ℝ),
      (∀ ω, (∀ e ∈ (srun (randomSampler o (streamDrawer fun i => X i ω)) ⟨[], [], [], 0, 0⟩ (ns.map fun n : Nat => .sample n)).2, e = none) ∧
        incumbent minimize (srun (randomSampler o (streamDrawer fun i => X i ω)) ⟨[], [], [], 0, 0⟩ (ns.map fun n : Nat => .sample n)).1
          = .ok (some (inc ω), some (best ω)) ∧ o.value (inc ω) = best ω) ∧
      ∀ v, (if minimize then
          P.real {ω | v ≤ best ω} = P.real {ω | v ≤ o.value (X 0 ω)} ^ ns.sum ∧ P.real {ω | v < best ω} = P.real {ω | v < o.value (X 0 ω)} ^ ns.sum
        else
          P.real {ω | best ω ≤ v} = P.real {ω | o.value (X 0 ω) ≤ v} ^ ns.sum ∧ P.real {ω | best ω < v} = P.real {ω | o.value (X 0 ω) < v} ^ ns.sum) := by
  choose inc best h1 h2 h3 h4 using fun ω => randomSearch_best o hno minimize (fun i => X i ω) hns hne
  refine ⟨inc, best, fun ω => ⟨(randomSearch_run o hno (fun i => X i ω) ns hns ⟨[], [], [], 0, 0⟩ rfl).2.2, h1 ω, h2 ω⟩, fun v => ?_⟩
  have key : ∀ strict, P.real {ω | ¬ reaches minimize strict (best ω) v} = P.real {ω | ¬ reaches minimize strict (o.value (X 0 ω)) v} ^ ns.sum := by
    intro strict
    have e : {ω | ¬ reaches minimize strict (best ω) v} = {ω | ∀ i < ns.sum, X i ω ∈ {c | reaches minimize strict (o.value c) v}ᶜ} := by
      ext ω
      simp only [Set.mem_ofPred_eq, Set.mem_compl_iff, reaches_best (h2 ω) (h3 ω) (h4 ω) strict v, not_not]
    rw [e, hX.all (measurableSet_reaches hf minimize strict v).compl]
    rfl
  have k1 := key true
  have k2 := key false
  cases minimize
  · simp only [reaches, not_lt, not_le] at k1 k2
    simpa using ⟨k1, k2⟩
  · simp only [reaches, not_lt, not_le] at k1 k2
    simpa using ⟨k1, k2⟩

/-- **C170** How many points are enough: if a single configuration is better than `v` with probability `p`, then after `log (1 / δ) / p` points the incumbent is, with
probability at least `1 - δ`. -/
theorem C170_enough {P : Measure Ω} [IsProbabilityMeasure P] {X : ℕ → Ω → C} (hX : IsIid P X) (o : Objective C ℝ) (hno : ∀ t c, o.raises t c = none)
    (hf : Measurable o.value) (minimize : Bool) {ns : List Nat} (hns : ∀ n ∈ ns, 2 ≤ n) (hne : ns ≠ []) {v p δ : ℝ} (hp0 : 0 < p) (hδ : 0 < δ)
    (hp : p ≤ P.real {ω | if minimize then o.value (X 0 ω) < v else v < o.value (X 0 ω)}) (hn : Real.log (1 / δ) / p ≤ ns.sum) :
    1 - δ ≤ P.real {ω | ∃ c w, incumbent minimize (srun (randomSampler o (streamDrawer fun i => X i ω)) ⟨[], [], [], 0, 0⟩
      (ns.map fun n : Nat => .sample n)).1 = .ok (some c, some w) ∧ if minimize then w < v else v < w} := by
  obtain ⟨inc, best, h1, h2⟩ := C170_distribution hX o hno hf minimize hns hne
  have hm : MeasurableSet {ω | if minimize then o.value (X 0 ω) < v else v < o.value (X 0 ω)} := by
    cases minimize
    · exact measurableSet_lt measurable_const (hf.comp (hX.measurable 0))
    · exact measurableSet_lt (hf.comp (hX.measurable 0)) measurable_const
  have hq := probReal_compl_eq_one_sub (μ := P) hm
  obtain ⟨q, hqd⟩ : ∃ q, q = P.real {ω | if minimize then o.value (X 0 ω) < v else v < o.value (X 0 ω)} := ⟨_, rfl⟩
  rw [← hqd] at hp hq
  have hq1 : q ≤ 1 := by rw [hqd]; exact measureReal_le_one
  have hset : {ω | ∃ c w, incumbent minimize (srun (randomSampler o (streamDrawer fun i => X i ω)) ⟨[], [], [], 0, 0⟩
      (ns.map fun n : Nat => .sample n)).1 = .ok (some c, some w) ∧ if minimize then w < v else v < w} = {ω | if minimize then best ω < v else v < best ω} := by
    ext ω
    simp only [Set.mem_ofPred_eq, (h1 ω).2.1, Except.ok.injEq, Prod.mk.injEq, Option.some.injEq]
    constructor
    · rintro ⟨c, w, ⟨-, rfl⟩, h⟩; exact h
    · intro h; exact ⟨_, _, ⟨rfl, rfl⟩, h⟩
  have hmiss : P.real {ω | if minimize then best ω < v else v < best ω}ᶜ = (1 - q) ^ ns.sum := by
    rw [← hq]
    have := h2 v
    cases minimize
    · simp only [Bool.false_eq_true, if_false] at this ⊢
      rw [Set.compl_ofPred, Set.compl_ofPred]
      simp only [not_lt]
      exact this.1
    · simp only [if_true] at this ⊢
      rw [Set.compl_ofPred, Set.compl_ofPred]
      simp only [not_lt]
      exact this.1
  have hbound : (1 - q) ^ ns.sum ≤ δ := by
    have a1 : 1 - q ≤ Real.exp (-q) := by linarith [Real.add_one_le_exp (-q)]
    have a2 : (1 - q) ^ ns.sum ≤ Real.exp (-q) ^ ns.sum := pow_le_pow_left₀ (by linarith) a1 _
    have a3 : Real.exp (-q) ^ ns.sum = Real.exp (-(q * ns.sum)) := by rw [← Real.exp_nat_mul]; ring_nf
    have a4 : Real.log (1 / δ) ≤ q * ns.sum := by
      rw [div_le_iff₀ hp0] at hn
      have : (ns.sum : ℝ) * p ≤ ns.sum * q := mul_le_mul_of_nonneg_left hp (Nat.cast_nonneg _)
      linarith
    have a5 : Real.exp (-(q * ns.sum)) ≤ Real.exp (Real.log δ) := by
      apply Real.exp_le_exp.2
      rw [one_div, Real.log_inv] at a4
      linarith
    rw [Real.exp_log hδ] at a5
    linarith
  have hone : 1 ≤ P.real {ω | if minimize then best ω < v else v < best ω} + P.real {ω | if minimize then best ω < v else v < best ω}ᶜ := by
    have := measureReal_union_le (μ := P) {ω | if minimize then best ω < v else v < best ω} {ω | if minimize then best ω < v else v < best ω}ᶜ
    rw [Set.union_compl_self, probReal_univ] at this
    exact this
  rw [hset]
  linarith

/-- **C170** In the long run: whatever value can be beaten with positive probability will be beaten, almost surely. `m k` is the size of call number `k`. -/
theorem C170_converges {P : Measure Ω} [IsProbabilityMeasure P] {X : ℕ → Ω → C} (hX : IsIid P X) (o : Objective C ℝ) (hno : ∀ t c, o.raises t c = none)
    (hf : Measurable o.value) (minimize : Bool) {m : ℕ → Nat} (hm : ∀ k, 2 ≤ m k) {v : ℝ}
    (hp : 0 < P.real {ω | if minimize then o.value (X 0 ω) < v else v < o.value (X 0 ω)}) :
    ∀ᵐ ω ∂P, ∀ᶠ k in atTop, ∃ c w, incumbent minimize (srun (randomSampler o (streamDrawer fun i => X i ω)) ⟨[], [], [], 0, 0⟩
      (((List.range k).map m).map fun n : Nat => .sample n)).1 = .ok (some c, some w) ∧ if minimize then w < v else v < w := by
  obtain ⟨q, hqd⟩ : ∃ q, q = P.real {ω | if minimize then o.value (X 0 ω) < v else v < o.value (X 0 ω)} := ⟨_, rfl⟩
  -- almost surely one of the configurations is better than `v`
  have hA : MeasurableSet {c | reaches minimize true (o.value c) v} := measurableSet_reaches hf minimize true v
  have hA0 : P.real {ω | X 0 ω ∈ {c | reaches minimize true (o.value c) v}} = q := by
    rw [hqd]; cases minimize <;> rfl
  have hmiss : ∀ N, P.real {ω | ∀ i < N, X i ω ∈ {c | reaches minimize true (o.value c) v}ᶜ} = (1 - q) ^ N := by
    intro N
    rw [hX.all hA.compl]
    congr 1
    have := probReal_compl_eq_one_sub (μ := P) (hX.measurable 0 hA)
    rw [← hA0]
    exact this
  have hq1 : q ≤ 1 := by rw [hqd]; exact measureReal_le_one
  rw [← hqd] at hp
  have hzero : P.real {ω | ∀ i, X i ω ∈ {c | reaches minimize true (o.value c) v}ᶜ} = 0 := by
    refine le_antisymm ?_ measureReal_nonneg
    refine ge_of_tendsto (tendsto_pow_atTop_nhds_zero_of_lt_one (r := 1 - q) (by linarith) (by linarith)) (Eventually.of_forall fun N => ?_)
    rw [← hmiss N]
    exact measureReal_mono fun ω h i _ => h i
  have hae : ∀ᵐ ω ∂P, ∃ i, reaches minimize true (o.value (X i ω)) v := by
    rw [ae_iff]
    have : {ω | ¬ ∃ i, reaches minimize true (o.value (X i ω)) v} = {ω | ∀ i, X i ω ∈ {c | reaches minimize true (o.value c) v}ᶜ} := by
      ext ω; simp
    rw [this]
    exact (measureReal_eq_zero_iff).1 hzero
  filter_upwards [hae] with ω hω
  obtain ⟨i, hi⟩ := hω
  filter_upwards [eventually_ge_atTop (i + 1)] with k hk
  have hlen : i < ((List.range k).map m).sum := by
    have : ∀ k, k ≤ ((List.range k).map m).sum := by
      intro k
      induction k with
      | zero => simp
      | succ k ih =>
        rw [List.range_succ, List.map_append, List.sum_append]
        have := hm k
        simp only [List.map_cons, List.map_nil, List.sum_cons, List.sum_nil]
        omega
    exact lt_of_lt_of_le hk (this k)
  obtain ⟨c, w, e1, e2, e3, e4⟩ := randomSearch_best o hno minimize (fun i => X i ω) (ns := (List.range k).map m)
    (fun n hn => by obtain ⟨j, -, rfl⟩ := List.mem_map.1 hn; exact hm j) (by intro h; rw [h] at hlen; simp at hlen)
  refine ⟨c, w, e1, ?_⟩
  have := (reaches_best e2 e3 e4 true v).2 fun hall => hall i hlen hi
  cases minimize <;> exact this

/-- **C170** is not vacuous: for every distribution of configurations there are independent ones drawn from it. -/
theorem C170_draws_exist (Q : Measure C) [IsProbabilityMeasure Q] :
    ∃ (P : Measure (ℕ → C)) (X : ℕ → (ℕ → C) → C), IsProbabilityMeasure P ∧ IsIid P X ∧ P.map (X 0) = Q := by
  have hmap : ∀ i, (Measure.infinitePi fun _ : ℕ => Q).map (fun ω => ω i) = Q := fun i => (measurePreserving_eval_infinitePi (fun _ : ℕ => Q) i).map_eq
  have hind : iIndepFun (fun (i : ℕ) (ω : ℕ → C) => ω i) (Measure.infinitePi fun _ : ℕ => Q) :=
    iIndepFun_infinitePi (P := fun _ : ℕ => Q) (X := fun _ x => x) fun _ => measurable_id
  exact ⟨Measure.infinitePi fun _ => Q, fun i ω => ω i, inferInstance, ⟨fun i => measurable_pi_apply i, hind, fun i => by rw [hmap i, hmap 0]⟩, hmap 0⟩

/-- sixty points, drawn by three calls: with more than 95 % the incumbent is among the best 5 % -/
example {P : Measure Ω} [IsProbabilityMeasure P] {X : ℕ → Ω → C} (hX : IsIid P X) (o : Objective C ℝ) (hno : ∀ t c, o.raises t c = none)
    (hf : Measurable o.value) {v : ℝ} (hv : P.real {ω | v ≤ o.value (X 0 ω)} = 19 / 20) :
    ∃ (inc : Ω → C) (best : Ω → ℝ), (∀ ω, incumbent true (srun (randomSampler o (streamDrawer fun i => X i ω)) ⟨[], [], [], 0, 0⟩
      [.sample 30, .sample 20, .sample 10]).1 = .ok (some (inc ω), some (best ω))) ∧ P.real {ω | v ≤ best ω} < 1 / 20 := by
  obtain ⟨inc, best, h1, h2⟩ := C170_distribution hX o hno hf true (ns := [30, 20, 10]) (by simp) (by simp)
  refine ⟨inc, best, fun ω => (h1 ω).2.1, ?_⟩
  have := (h2 v).1
  rw [this, hv]
  norm_num

/-- the draws of a sampler, one call after the other -/
example : (srun (randomSampler (⟨fun c => (c : ℤ) - 3, fun _ _ => none⟩ : Objective ℕ ℤ) (streamDrawer fun i => i * i)) ⟨[], [], [], 0, 0⟩
    [.sample 2, .sample 3]).1.configs = [0, 1, 4, 9, 16] := by decide

end PyPDP
