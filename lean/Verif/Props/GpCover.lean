/-
C179: for objectives that the kernel can represent, the truth lies within the confidence band of the Gaussian process surrogate.
-/
import Verif.Props.AcquisitionSmooth
import Verif.Spec.GpCover
import Mathlib.Algebra.Order.Chebyshev

namespace PyPDP
open Spec

/-- what a linear predictor gets wrong about a combination of the kernel is at most the product of its size and the error of the predictor -/
theorem combination_error {d : Nat} {k : Kernel} (hk : Covariance d k) {Z : List (List ℝ)} (hZ : ∀ z ∈ Z, z.length = d) {z : List ℝ} (hz : z.length = d)
    (w : ℕ → ℝ) {q : Nat} (a : Fin q → ℝ) {p : Fin q → List ℝ} (hp : ∀ j, (p j).length = d) :
    |∑ i ∈ Finset.range Z.length, w i * kernelSum k a p (Z.getD i []) - kernelSum k a p z| ≤ kernelNorm k a p * √(linearError k Z z w) := by
  have hl : ∀ i : Fin Z.length, (Z[i]).length = d := fun i => hZ _ (List.getElem_mem _)
  have hg : ∀ i : Fin Z.length, Z.getD i [] = Z[i] := fun i => by simp
  obtain ⟨D, hD⟩ : ∃ D, D = ∑ i ∈ Finset.range Z.length, w i * kernelSum k a p (Z.getD i []) - kernelSum k a p z := ⟨_, rfl⟩
  obtain ⟨N, hN⟩ : ∃ N, N = ∑ i, ∑ j, a i * a j * k (p i) (p j) := ⟨_, rfl⟩
  have hN0 : 0 ≤ N := hN ▸ hk.2 q p a hp
  have hE0 := linearError_nonneg hk hZ hz w
  have hquad : ∀ c : ℝ, 0 ≤ N * (c * c) + (2 * D) * c + linearError k Z z w := by
    intro c
    have hcov := hk.2 (q + (Z.length + 1)) (Fin.append p (Fin.cons z fun i => Z[i])) (Fin.append (fun j => c * a j) (Fin.cons (-1) fun i => w i))
      (fun i => by
        refine Fin.addCases (fun j => ?_) (fun j => ?_) i
        · rw [Fin.append_left]; exact hp j
        · rw [Fin.append_right]
          refine Fin.cases hz (fun l => ?_) j
          exact hl l)
    simp only [Fin.sum_univ_add, Fin.append_left, Fin.append_right, Fin.sum_univ_succ, Fin.cons_zero, Fin.cons_succ] at hcov
    obtain ⟨A, hA⟩ : ∃ A, A = ∑ i ∈ Finset.range Z.length, w i * k z (Z.getD i []) := ⟨_, rfl⟩
    obtain ⟨S, hS⟩ : ∃ S, S = ∑ i ∈ Finset.range Z.length, ∑ j ∈ Finset.range Z.length, w i * w j * k (Z.getD i []) (Z.getD j []) := ⟨_, rfl⟩
    obtain ⟨T, hT⟩ : ∃ T, T = ∑ i ∈ Finset.range Z.length, w i ^ 2 := ⟨_, rfl⟩
    have hT0 : 0 ≤ T := hT ▸ Finset.sum_nonneg fun i _ => sq_nonneg _
    have e1 : ∑ i : Fin q, (∑ j : Fin q, c * a i * (c * a j) * k (p i) (p j) + (c * a i * -1 * k (p i) z + ∑ j : Fin Z.length, c * a i * w j * k (p i) Z[j]))
        = c ^ 2 * N + c * D := by
      rw [Finset.sum_add_distrib, Finset.sum_add_distrib]
      have s1 : ∑ i : Fin q, ∑ j : Fin q, c * a i * (c * a j) * k (p i) (p j) = c ^ 2 * N := by
        rw [hN, Finset.mul_sum]
        refine Finset.sum_congr rfl fun i _ => ?_
        rw [Finset.mul_sum]
        exact Finset.sum_congr rfl fun j _ => by ring
      have s2 : ∑ i : Fin q, c * a i * -1 * k (p i) z = -(c * kernelSum k a p z) := by
        rw [kernelSum, Finset.mul_sum, ← Finset.sum_neg_distrib]
        exact Finset.sum_congr rfl fun i _ => by rw [hk.1 _ _ (hp i) hz]; ring
      have s3 : ∑ i : Fin q, ∑ j : Fin Z.length, c * a i * w j * k (p i) Z[j] = c * ∑ i ∈ Finset.range Z.length, w i * kernelSum k a p (Z.getD i []) := by
        rw [Finset.sum_comm, Finset.sum_range, Finset.mul_sum]
        refine Finset.sum_congr rfl fun j _ => ?_
        rw [kernelSum, Finset.mul_sum, Finset.mul_sum]
        exact Finset.sum_congr rfl fun i _ => by rw [hg, hk.1 _ _ (hp i) (hl j)]; ring
      rw [s1, s2, s3, hD]
      ring
    have e2 : ∑ j : Fin q, -1 * (c * a j) * k z (p j) = -(c * kernelSum k a p z) := by
      rw [kernelSum, Finset.mul_sum, ← Finset.sum_neg_distrib]
      exact Finset.sum_congr rfl fun i _ => by ring
    have e3 : ∑ j : Fin Z.length, -1 * w j * k z Z[j] = -A := by
      rw [hA, Finset.sum_range, ← Finset.sum_neg_distrib]
      exact Finset.sum_congr rfl fun i _ => by rw [hg]; ring
    have e4 : ∑ i : Fin Z.length, (∑ j : Fin q, w i * (c * a j) * k Z[i] (p j) + (w i * -1 * k Z[i] z + ∑ j : Fin Z.length, w i * w j * k Z[i] Z[j]))
        = c * ∑ i ∈ Finset.range Z.length, w i * kernelSum k a p (Z.getD i []) + (-A + S) := by
      rw [Finset.sum_add_distrib, Finset.sum_add_distrib]
      congr 1
      · rw [Finset.sum_range, Finset.mul_sum]
        refine Finset.sum_congr rfl fun j _ => ?_
        rw [kernelSum, Finset.mul_sum, Finset.mul_sum]
        exact Finset.sum_congr rfl fun i _ => by rw [hg]; ring
      · congr 1
        · rw [hA, Finset.sum_range, ← Finset.sum_neg_distrib]
          exact Finset.sum_congr rfl fun i _ => by rw [hg, hk.1 _ _ (hl i) hz]; ring
        · rw [hS, Finset.sum_range]
          refine Finset.sum_congr rfl fun i _ => ?_
          rw [Finset.sum_range]
          exact Finset.sum_congr rfl fun j _ => by rw [hg, hg]
    rw [e1, e2, e3, e4] at hcov
    unfold linearError
    rw [← hA, ← hS, ← hT]
    have hDc : c * D = c * ∑ i ∈ Finset.range Z.length, w i * kernelSum k a p (Z.getD i []) - c * kernelSum k a p z := by rw [hD]; ring
    linarith
  have hd := discrim_le_zero hquad
  unfold discrim at hd
  rw [← hD, kernelNorm, ← hN, ← Real.sqrt_mul hN0]
  apply Real.abs_le_sqrt
  linarith

/-- **C179** coverage: if the kernel can represent the objective with size `B` at the evaluated rows and at some other row, then its value there is within `B` predicted standard deviations of
the predicted mean. -/
theorem C179_cover {d : Nat} {choose : List (List ℝ) → List ℝ → Kernel} (hk : ∀ Z t, Covariance d (choose Z t)) {X : List (List ℝ)} {f : List ℝ → ℝ}
    (h : TrainingData d X (X.map f)) {s s' : GpSurrogate} (hs : s.fit choose X (X.map f) = (s', .ok ())) {q : Nat} {a : Fin q → ℝ} {p : Fin q → List ℝ}
    {R : Set (List ℝ)} (hf : Represents (chosenKernel choose d X (X.map f)) d X (X.map f) a p f R) (hX : ∀ q ∈ X, q ∈ R) {r : List ℝ} (hr : r ∈ R) {m σ : ℝ}
    (hp : s'.predict [r] = .ok ([m], [σ])) :
    |m - f r| ≤ kernelNorm (chosenKernel choose d X (X.map f)) a p * σ := by
  obtain ⟨hσ, w, hm, hw, -⟩ := C175_weights hk h hs hp
  have hc := spread_pos h.targets_ne
  have hcov := chosenKernel_covariance hk X (X.map f)
  have herr := combination_error hcov (scaled_rows d X) (standardised_length d X r) w a hf.1
  obtain ⟨k, hkdef⟩ : ∃ k, k = chosenKernel choose d X (X.map f) := ⟨_, rfl⟩
  obtain ⟨c, hcdef⟩ : ∃ c, c = spread (X.map f) := ⟨_, rfl⟩
  obtain ⟨μ, hμdef⟩ : ∃ μ, μ = targetMean (X.map f) := ⟨_, rfl⟩
  rw [List.length_map] at herr
  rw [← hkdef] at hw herr hf ⊢
  rw [← hcdef] at hw hc
  rw [← hμdef] at hm
  have hfr := hf.2
  rw [← hcdef, ← hμdef] at hfr
  have hσ' : σ = c * √(linearError k (X.map (standardised d X)) (standardised d X r) w) := by
    rw [← Real.sqrt_sq hσ, hw, Real.sqrt_mul (sq_nonneg _), Real.sqrt_sq hc.le]
  have hdiff : m - f r = c * (∑ i ∈ Finset.range X.length, w i * kernelSum k a p ((X.map (standardised d X)).getD i []) - kernelSum k a p (standardised d X r)) := by
    rw [hm, hfr r hr, mul_sub, Finset.mul_sum]
    have : ∑ i ∈ Finset.range X.length, w i * ((X.map f).getD i 0 - μ) = ∑ i ∈ Finset.range X.length, c * (w i * kernelSum k a p ((X.map (standardised d X)).getD i [])) := by
      refine Finset.sum_congr rfl fun i hi => ?_
      have hi := Finset.mem_range.1 hi
      have e1 : (X.map f).getD i 0 = f X[i] := by simp [List.getD_eq_getElem?_getD, hi]
      have e2 : (X.map (standardised d X)).getD i [] = standardised d X X[i] := by simp [List.getD_eq_getElem?_getD, hi]
      rw [e1, e2, hfr _ (hX _ (List.getElem_mem hi))]
      ring
    rw [this]
    ring
  rw [hdiff, abs_mul, abs_of_pos hc, hσ']
  calc c * |_| ≤ c * (kernelNorm k a p * √(linearError k (X.map (standardised d X)) (standardised d X r) w)) := mul_le_mul_of_nonneg_left herr hc.le
    _ = _ := by ring

/-- **C179** the same for partial dependence plots: the curve is within `B` times the root of `y_variances` of the true partial dependence, so a confidence band of at least `B` standard
deviations contains it. -/
theorem C179_pdp {space : ConfigSpace ℝ} {choose : List (List ℝ) → List ℝ → Kernel} (hk : ∀ Z t, Covariance space.length (choose Z t)) {X : List (List ℝ)} {f : List ℝ → ℝ}
    (h : TrainingData space.length X (X.map f)) {s s' : GpSurrogate} (hs : s.fit choose X (X.map f) = (s', .ok ())) {q : Nat} {a : Fin q → ℝ} {p : Fin q → List ℝ}
    {R : Set (List ℝ)} (hf : Represents (chosenKernel choose space.length X (X.map f)) space.length X (X.map f) a p f R) (hX : ∀ q ∈ X, q ∈ R) {sel : Selection ℝ}
    {selected : List (Hp ℝ)} {samples : List (List ℝ)} {g : Nat} {grid : List (List ℝ)} (hin : DependenceInput space sel selected samples g grid)
    (hR : ∀ t ∈ grid, ∀ r ∈ samples, atPoint space selected t r ∈ R) :
    ∃ y v, yPdp space s'.predict sel samples g = .ok y ∧ vPdp space s'.predict sel samples g = .ok v ∧ y.length = grid.length ∧ v.length = grid.length ∧
      ∀ (i : Nat) (t : List ℝ), grid[i]? = some t →
        |y.getD i 0 - (samples.map fun r => f (atPoint space selected t r)).sum / samples.length|
          ≤ kernelNorm (chosenKernel choose space.length X (X.map f)) a p * √(v.getD i 0) := by
  obtain ⟨s'', hfit, -, ⟨mu, sd, hrow, hnn⟩, -⟩ := C99_fit hk h s
  obtain rfl : s' = s'' := (Prod.mk.inj (hs.symm.trans hfit)).1
  obtain ⟨hy, hv⟩ := pdp_values hin.wf hin.sel_eq hin.mem hin.ne hin.distinct hrow hin.samples_ne hin.rows hin.grid_pos hin.grid_eq
  refine ⟨_, _, hy, hv, by simp, by simp, fun i t hi => ?_⟩
  have hm : (0 : ℝ) < samples.length := by exact_mod_cast List.length_pos_iff.2 hin.samples_ne
  have ht := List.mem_of_getElem? hi
  obtain ⟨B, hB⟩ : ∃ B, B = kernelNorm (chosenKernel choose space.length X (X.map f)) a p := ⟨_, rfl⟩
  have hB0 : 0 ≤ B := hB ▸ Real.sqrt_nonneg _
  have hone : ∀ r ∈ samples, |mu (atPoint space selected t r) - f (atPoint space selected t r)| ≤ B * sd (atPoint space selected t r) := by
    intro r hr
    have hlen : (atPoint space selected t r).length = space.length := by simp [atPoint, hin.rows r hr]
    rw [hB]
    exact C179_cover hk h hs hf hX (hR t ht r hr) (by rw [hrow [atPoint space selected t r] (by simp) (by simpa using hlen)]; rfl)
  simp only [List.getD_eq_getElem?_getD, List.getElem?_map, hi, Option.map_some, Option.getD_some]
  rw [← hB, ← sub_div, sum_map_fin, sum_map_fin, sum_map_fin, ← Finset.sum_sub_distrib, abs_div, abs_of_pos hm]
  have h1 : |∑ i : Fin samples.length, (mu (atPoint space selected t (samples.get i)) - f (atPoint space selected t (samples.get i)))|
      ≤ B * ∑ i : Fin samples.length, sd (atPoint space selected t (samples.get i)) := by
    rw [Finset.mul_sum]
    exact (Finset.abs_sum_le_sum_abs _ _).trans (Finset.sum_le_sum fun i _ => hone _ (List.get_mem samples i))
  have h2 : (∑ i : Fin samples.length, sd (atPoint space selected t (samples.get i))) / samples.length
      ≤ √((∑ i : Fin samples.length, sd (atPoint space selected t (samples.get i)) ^ 2) / samples.length) := by
    apply Real.le_sqrt_of_sq_le
    have := sq_sum_le_card_mul_sum_sq (s := (Finset.univ : Finset (Fin samples.length))) (f := fun i => sd (atPoint space selected t (samples.get i)))
    rw [Finset.card_univ, Fintype.card_fin] at this
    rw [div_pow, div_le_div_iff₀ (by positivity) hm]
    nlinarith
  calc _ ≤ B * (∑ i : Fin samples.length, sd (atPoint space selected t (samples.get i))) / samples.length := div_le_div_of_nonneg_right h1 hm.le
    _ = B * ((∑ i : Fin samples.length, sd (atPoint space selected t (samples.get i))) / samples.length) := mul_div_assoc _ _ _
    _ ≤ _ := mul_le_mul_of_nonneg_left h2 hB0

/-- **C179** and for the choice of the next evaluation: with a lower confidence bound whose `tau` is at least `B`, the candidate that `get_optimum` picks costs at most `2 tau` predicted standard
deviations (at that candidate) more than the best candidate. -/
theorem C179_regret {S : Type} {d : Nat} {choose : List (List ℝ) → List ℝ → Kernel} (hk : ∀ Z t, Covariance d (choose Z t)) {X : List (List ℝ)} {f : List ℝ → ℝ}
    (h : TrainingData d X (X.map f)) {s s' : GpSurrogate} (hs : s.fit choose X (X.map f) = (s', .ok ())) {q : Nat} {a : Fin q → ℝ} {p : Fin q → List ℝ}
    {R : Set (List ℝ)} (hf : Represents (chosenKernel choose d X (X.map f)) d X (X.map f) a p f R) (hX : ∀ q ∈ X, q ∈ R) {tau : ℝ}
    (htau : kernelNorm (chosenKernel choose d X (X.map f)) a p ≤ tau) (eta : Option ℝ) (names : List String) (dr : Drawer (Config ℝ) S) {n : Int} (hn : 2 ≤ n) (rng : S)
    (hdraw : ∀ c ∈ (dr.draw rng n.toNat).1, c.vector.length = d ∧ c.vector ∈ R) :
    ∃ c m σ, (getOptimum names dr n (gpAcq (.lcb tau) true s' eta) rng).2 = .ok (.config c) ∧ c ∈ (dr.draw rng n.toNat).1 ∧ s'.predict [c.vector] = .ok ([m], [σ]) ∧
      ∀ c' ∈ (dr.draw rng n.toNat).1, f c.vector ≤ f c'.vector + 2 * tau * σ := by
  obtain ⟨c, hopt, i, hi, hmax, -⟩ := C39_best_partial names dr hn (gpAcq (.lcb tau) true s' eta) rng
  obtain ⟨s'', hfit, -, ⟨mu, sd, hrow, hnn⟩, -⟩ := C99_fit hk h s
  obtain rfl : s' = s'' := (Prod.mk.inj (hs.symm.trans hfit)).1
  have hpred : ∀ r : List ℝ, r.length = d → s'.predict [r] = .ok ([mu r], [sd r]) := fun r hr => by
    rw [hrow [r] (by simp) (by simpa using hr)]; rfl
  have hc := List.mem_of_getElem? hi
  have hval : ∀ c : Config ℝ, c.vector.length = d → gpAcq (.lcb tau) true s' eta c = lcbValue true tau (mu c.vector) (sd c.vector) := fun c hc => by
    unfold gpAcq
    rw [hpred _ hc]
    rfl
  have hcov : ∀ c ∈ (dr.draw rng n.toNat).1, |mu c.vector - f c.vector| ≤ tau * sd c.vector := fun c hc =>
    (C179_cover hk h hs hf hX (hdraw c hc).2 (hpred _ (hdraw c hc).1)).trans (mul_le_mul_of_nonneg_right htau (hnn _))
  refine ⟨c, mu c.vector, sd c.vector, by rw [hopt], hc, hpred _ (hdraw c hc).1, fun c' hc' => ?_⟩
  have hle : gpAcq (.lcb tau) true s' eta c' ≤ gpAcq (.lcb tau) true s' eta c := not_lt.1 (by simpa using hmax c' hc')
  rw [hval _ (hdraw c hc).1, hval _ (hdraw c' hc').1] at hle
  have h1 := abs_le.1 (hcov c hc)
  have h2 := abs_le.1 (hcov c' hc')
  simp only [lcbValue, if_true] at hle
  linarith [h1.1, h1.2, h2.1, h2.2]

/-- the kernel of linear functions of one hyperparameter -/
private def lineKernel : Kernel := fun z z' => z.getD 0 0 * z'.getD 0 0

/-- with that kernel the objective `2 x`, evaluated at 0 and 1, has size 1: at every `x` it is within one predicted standard deviation of the predicted mean -/
example {s s' : GpSurrogate} (hs : s.fit (fun _ _ => lineKernel) [[0], [1]] [0, 2] = (s', .ok ())) {x m σ : ℝ}
    (hp : s'.predict [[x]] = .ok ([m], [σ])) : |m - 2 * x| ≤ σ := by
  have hk : Covariance 1 lineKernel := by
    refine ⟨fun z z' _ _ => mul_comm _ _, fun n z c _ => ?_⟩
    have : ∑ i, ∑ j, c i * c j * lineKernel (z i) (z j) = (∑ i, c i * (z i).getD 0 0) ^ 2 := by
      rw [sq, Finset.sum_mul_sum]
      exact Finset.sum_congr rfl fun i _ => Finset.sum_congr rfl fun j _ => by unfold lineKernel; ring
    rw [this]
    positivity
  have hsp : spread ([0, 1] : List ℝ) = 1 / 2 := by
    unfold spread
    rw [if_neg]
    · have : squares (targetMean [0, 1]) [0, 1] / ([0, 1] : List ℝ).length = (1 / 2) ^ 2 := by norm_num [squares, targetMean]
      rw [this, Real.sqrt_sq (by norm_num)]
    · intro h
      have := h 0 (by simp) 1 (by simp)
      norm_num at this
  obtain ⟨f, hf⟩ : ∃ f : List ℝ → ℝ, f = fun r => 2 * r.getD 0 0 := ⟨_, rfl⟩
  have hy : ([[0], [1]] : List (List ℝ)).map f = [0, 2] := by simp [hf]
  have hrep : Represents (chosenKernel (fun _ _ => lineKernel) 1 [[0], [1]] ([[0], [1]].map f)) 1 [[0], [1]] ([[0], [1]].map f) (fun _ : Fin 1 => 1) (fun _ => [1]) f
      {r | r.length = 1} := by
    refine ⟨fun _ => rfl, fun r hr => ?_⟩
    obtain ⟨v, rfl⟩ := List.length_eq_one_iff.1 hr
    rw [hy, exGp_data.2]
    simp only [kernelSum, chosenKernel, lineKernel, standardised, List.map_cons, List.map_nil, List.range_one, List.getD_cons_zero, hsp, hf]
    norm_num [targetMean]
    ring
  have := C179_cover (fun _ _ => hk) (hy ▸ exGp_data.1) (hy ▸ hs) hrep (by simp) (r := [x]) rfl hp
  simpa [hf, kernelNorm, chosenKernel, lineKernel] using this

end PyPDP
