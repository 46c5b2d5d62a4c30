/-
Confidence bands and lines: C72.
-/
import Verif.Lemmas.Plot
import Mathlib.Tactic.Linarith
import Mathlib.Tactic.Ring

namespace PyPDP
open Spec

section C72

theorem offsetBy_ok {f : ℝ} {means stds : List ℝ} (h : stds.length = means.length) :
    ∃ ys, offsetBy f means stds = .ok ys ∧ OffsetOf f means stds ys := by
  refine ⟨_, if_pos h.symm, by simp [h], fun i m s hm hs => ?_⟩
  rw [List.getElem?_zipWith, hm, hs]

theorem Spec.OffsetOf.forall2 {f g : ℝ} {means stds a b : List ℝ} (h : stds.length = means.length) (ha : OffsetOf f means stds a)
    (hb : OffsetOf g means stds b) (hle : ∀ s ∈ stds, f * s ≤ g * s) : List.Forall₂ (· ≤ ·) a b := by
  rw [List.forall₂_iff_get]
  refine ⟨ha.1.trans hb.1.symm, fun i h1 h2 => ?_⟩
  have hm : i < means.length := ha.1 ▸ h1
  have hs : i < stds.length := by omega
  have e1 := ha.2 i _ _ (List.getElem?_eq_getElem hm) (List.getElem?_eq_getElem hs)
  have e2 := hb.2 i _ _ (List.getElem?_eq_getElem hm) (List.getElem?_eq_getElem hs)
  rw [List.getElem?_eq_getElem h1] at e1
  rw [List.getElem?_eq_getElem h2] at e2
  simp only [List.get_eq_getElem]
  rw [Option.some.inj e1, Option.some.inj e2]
  have := hle _ (List.getElem_mem hs)
  linarith

theorem Spec.GivenStds.getStds {stds variances : Option (List ℝ)} {s : List ℝ} (h : GivenStds stds variances s) :
    getStds stds variances = .ok s := by
  rcases h with ⟨rfl, rfl⟩ | ⟨rfl, v, rfl, hv⟩
  · rfl
  · show Except.ok (v.map Real.sqrt) = Except.ok s
    congr 1
    induction hv with
    | nil => rfl
    | cons h _ ih => rw [List.map_cons, ih, h]

theorem bandLoop_ok {x means stds : List ℝ} (hm : means.length = x.length) (hs : stds.length = x.length) (color : String) {steps : Nat}
    (hsteps : 1 ≤ steps) (maxSigma : ℝ) (k : Nat) : ∀ (i : Nat) (ax : Ax ℝ), ∃ bands, bandLoop color steps maxSigma x means stds i k ax = (ax.draw bands, .ok ()) ∧
      List.Forall₂ (fun (j : Nat) s => BandOf color x means stds ((j : ℝ) / steps * maxSigma) s) ((List.range k).map (i + ·)) bands := by
  induction k with
  | zero => intro i ax; exact ⟨[], by simp [bandLoop], by simp⟩
  | succ k ih =>
    intro i ax
    obtain ⟨lo, hlo, hlo'⟩ := offsetBy_ok (f := -((i : ℝ) / steps * maxSigma)) (hs.trans hm.symm)
    obtain ⟨hi, hhi, hhi'⟩ := offsetBy_ok (f := (i : ℝ) / steps * maxSigma) (hs.trans hm.symm)
    obtain ⟨bands, hb, hb'⟩ := ih (i + 1) (ax.draw [.band color x lo hi])
    refine ⟨.band color x lo hi :: bands, ?_, ?_⟩
    · unfold bandLoop
      dsimp only
      rw [hlo, Plot.lift_bind_ok, hhi, Plot.lift_bind_ok]
      have hpos : (1 : ℝ) ≤ steps := by exact_mod_cast hsteps
      have hd : drawBand color (3 / 10 / (steps : ℝ)) x lo hi ax = (ax.draw [.band color x lo hi], .ok ()) := by
        unfold drawBand
        rw [if_pos ⟨by positivity, by rw [div_le_one (by linarith)]; linarith, by rw [hlo'.1, hm], by rw [hhi'.1, hm]⟩, Plot.add_eq]
      rw [Plot.bind_ok hd, hb]
      simp
    · rw [List.range_succ_eq_map, List.map_cons, List.map_map]
      refine .cons ⟨lo, hi, rfl, by simpa using hlo', by simpa using hhi'⟩ ?_
      have e : ((i + ·) ∘ Nat.succ : Nat → Nat) = (i + 1 + ·) := by funext j; simp; omega
      rw [e]; exact hb'

/-- **C72** the gradient consists of `sigma_steps` bands of `f` standard deviations around the means; the factors start with 0 and,
for a positive `max_sigma`, increase and stay below it. -/
theorem C72_bands {x means s : List ℝ} (hm : means.length = x.length) (hs : s.length = x.length) {stds variances : Option (List ℝ)}
    (hg : GivenStds stds variances s) (color : String) (steps : Nat) (maxSigma : ℝ) (ax : Ax ℝ) :
    ∃ (fs : List ℝ) (bands : List (Shape ℝ)),
      confidenceGradients x means stds variances color steps maxSigma ax = (ax.draw bands, .ok ()) ∧
      List.Forall₂ (BandOf color x means s) fs bands ∧ fs.length = steps ∧ (∀ f, fs.head? = some f → f = 0) ∧
      (0 < maxSigma → fs.Pairwise (· < ·) ∧ ∀ f ∈ fs, 0 ≤ f ∧ f < maxSigma) := by
  rcases Nat.eq_zero_or_pos steps with rfl | hpos
  · refine ⟨[], [], ?_, .nil, rfl, by simp, by simp⟩
    simp [confidenceGradients, hg.getStds, bandLoop]
  · obtain ⟨bands, hb, hb'⟩ := bandLoop_ok hm hs color hpos maxSigma steps 0 ax
    refine ⟨(List.range steps).map fun j : Nat => (j : ℝ) / steps * maxSigma, bands, ?_, ?_, by simp, ?_, ?_⟩
    · unfold confidenceGradients
      rw [hg.getStds, Plot.lift_bind_ok]
      simpa using hb
    · simp only [zero_add, List.map_id'] at hb'
      rw [List.forall₂_map_left_iff]; exact hb'
    · intro f hf
      obtain ⟨n, rfl⟩ : ∃ n, steps = n + 1 := ⟨steps - 1, by omega⟩
      rw [List.range_succ_eq_map] at hf
      simp at hf
      exact hf.symm
    · intro hmax
      have hp : (0 : ℝ) < steps := by exact_mod_cast hpos
      constructor
      · rw [List.pairwise_map]
        refine List.pairwise_lt_range.imp fun {a b} hab => ?_
        have : (a : ℝ) < b := by exact_mod_cast hab
        have := div_lt_div_of_pos_right this hp
        exact mul_lt_mul_of_pos_right this hmax
      · intro f hf
        obtain ⟨j, hj, rfl⟩ := List.mem_map.1 hf
        have hj' : (j : ℝ) < steps := by exact_mod_cast List.mem_range.1 hj
        have h1 : (j : ℝ) / steps < 1 := (div_lt_one hp).2 hj'
        exact ⟨by positivity, by nlinarith⟩

/-- **C72** every band contains the bands drawn before it, and the means lie inside all of them. -/
theorem C72_nested {x means s : List ℝ} (hm : means.length = x.length) (hs : s.length = x.length) {stds variances : Option (List ℝ)}
    (hg : GivenStds stds variances s) (hnn : ∀ t ∈ s, 0 ≤ t) (color : String) (steps : Nat) {maxSigma : ℝ} (hmax : 0 < maxSigma) (ax : Ax ℝ) :
    ∃ bands : List (Shape ℝ), (confidenceGradients x means stds variances color steps maxSigma ax).1.shapes = ax.shapes ++ bands ∧
      bands.length = steps ∧ bands.Pairwise Inside := by
  obtain ⟨fs, bands, h1, h2, h3, -, h5⟩ := C72_bands hm hs hg color steps maxSigma ax
  refine ⟨bands, by rw [h1]; rfl, by rw [← h2.length_eq, h3], ?_⟩
  obtain ⟨hp, hb⟩ := h5 hmax
  clear h1 h3 h5
  induction h2 with
  | nil => exact .nil
  | @cons f sh fs bands hf hrest ih =>
    rw [List.pairwise_cons] at hp ⊢
    refine ⟨fun sh' hsh' => ?_, ih hp.2 (fun f hf => hb f (by simp [hf]))⟩
    obtain ⟨j, hj, rfl⟩ := List.getElem_of_mem hsh'
    have hj' : j < fs.length := by rw [hrest.length_eq]; exact hj
    have hfj := (List.forall₂_iff_get.1 hrest).2 j hj' hj
    simp only [List.get_eq_getElem] at hfj
    obtain ⟨lo, hi, rfl, hlo, hhi⟩ := hf
    obtain ⟨lo', hi', e, hlo', hhi'⟩ := hfj
    rw [e]
    have hlt := hp.1 _ (List.getElem_mem hj')
    have h0 := (hb f (by simp)).1
    have hl := hs.trans hm.symm
    refine ⟨rfl, hlo'.forall2 hl hlo fun t ht => ?_, hlo.forall2 hl hhi fun t ht => ?_, hhi.forall2 hl hhi' fun t ht => ?_⟩ <;>
    · have := hnn t ht
      nlinarith

/-- **C72** giving both standard deviations and variances, or neither, is a RuntimeError and nothing is drawn. -/
theorem C72_stds {stds variances : Option (List ℝ)} (h : stds.isSome = variances.isSome) (x means : List ℝ) (color : String) (ax : Ax ℝ) :
    (∀ steps maxSigma, confidenceGradients x means stds variances color steps maxSigma ax = (ax, .error .runtime)) ∧
    (∀ ks, confidenceLines x means stds variances color ks ax = (ax, .error .runtime)) := by
  have : getStds stds variances = .error .runtime := by cases stds <;> cases variances <;> simp_all [getStds]
  simp [confidenceGradients, confidenceLines, this]

theorem sigmaLoop_ok {x means stds : List ℝ} (hm : means.length = x.length) (hs : stds.length = x.length) (color : String) {ks : List ℝ}
    (hk : ∀ k ∈ ks, k = 0 ∨ 1 / 5 ≤ k) : ∀ ax : Ax ℝ, ∃ pairs, sigmaLoop color x means stds ks ax = (ax.draw pairs.flatten, .ok ()) ∧
      List.Forall₂ (LinesOf color x means stds) (ks.filter fun k => decide (k ≠ 0)) pairs := by
  induction ks with
  | nil => intro ax; exact ⟨[], by simp [sigmaLoop], by simp⟩
  | cons k ks ih =>
    intro ax
    have ih := ih (fun k hk' => hk k (by simp [hk']))
    by_cases h0 : k = 0
    · obtain ⟨pairs, h1, h2⟩ := ih ax
      refine ⟨pairs, ?_, by simpa [h0] using h2⟩
      unfold sigmaLoop
      rw [if_pos h0, h1]
    · have hk5 : 1 / 5 ≤ k := (hk k (by simp)).resolve_left h0
      have hkpos : 0 < k := by linarith
      obtain ⟨lo, hlo, hlo'⟩ := offsetBy_ok (f := -k) (hs.trans hm.symm)
      obtain ⟨hi, hhi, hhi'⟩ := offsetBy_ok (f := k) (hs.trans hm.symm)
      have ha : (0 : ℝ) ≤ 1 / k * (1 / 5) ∧ 1 / k * (1 / 5) ≤ 1 := by
        constructor
        · positivity
        · rw [div_mul_div_comm, div_le_one (by positivity)]; linarith
      have hd : ∀ (ys : List ℝ) (ax : Ax ℝ), ys.length = means.length → drawLine color (1 / k * (1 / 5)) x ys ax = (ax.draw [.line color x ys], .ok ()) := by
        intro ys ax hy
        unfold drawLine
        rw [if_pos ⟨ha.1, ha.2, by rw [hy, hm]⟩, Plot.add_eq]
      obtain ⟨pairs, h1, h2⟩ := ih ((ax.draw [.line color x lo]).draw [.line color x hi])
      refine ⟨[.line color x lo, .line color x hi] :: pairs, ?_, ?_⟩
      · unfold sigmaLoop
        rw [if_neg h0, hlo, Plot.lift_bind_ok, Plot.bind_ok (hd lo ax hlo'.1), hhi, Plot.lift_bind_ok, Plot.bind_ok (hd hi _ hhi'.1), h1]
        simp
      · rw [List.filter_cons_of_pos (by simpa using h0)]
        exact .cons ⟨lo, hi, rfl, hlo', hhi'⟩ h2

/-- **C72** for a list (or tuple) of factors that are 0 or at least 0.2: first the means (if 0 is among the factors), then for every
other factor, in increasing order, the two lines. Missing for the full claim: factors below 0.2 and iterators, see the
counterexamples. -/
theorem C72_lines_partial {x means s : List ℝ} (hm : means.length = x.length) (hs : s.length = x.length) {stds variances : Option (List ℝ)}
    (hg : GivenStds stds variances s) (color : String) {ks : List ℝ} (hk : ∀ k ∈ ks, k = 0 ∨ 1 / 5 ≤ k) (ax : Ax ℝ) :
    ∃ (sorted : List ℝ) (pairs : List (List (Shape ℝ))),
      confidenceLines x means stds variances color (.seq ks) ax =
        (ax.draw ((if 0 ∈ ks then [.line color x means] else []) ++ pairs.flatten), .ok ()) ∧
      sorted.Perm (ks.filter fun k => decide (k ≠ 0)) ∧ sorted.Pairwise (· ≤ ·) ∧ List.Forall₂ (LinesOf color x means s) sorted pairs := by
  obtain ⟨so, hso⟩ : ∃ so, so = ks.mergeSort (fun a b => decide (a ≤ b)) := ⟨_, rfl⟩
  have hperm : so.Perm ks := by rw [hso]; exact List.mergeSort_perm _ _
  have hsorted : so.Pairwise (· ≤ ·) := by
    rw [hso]
    refine (List.pairwise_mergeSort (le := fun a b : ℝ => decide (a ≤ b)) ?_ ?_ ks).imp fun h => of_decide_eq_true h
    · intro a b c h1 h2
      simp only [decide_eq_true_eq] at *
      exact h1.trans h2
    · intro a b
      simp only [Bool.or_eq_true, decide_eq_true_eq]
      exact le_total a b
  have hmu : ∀ ax : Ax ℝ, muLine color x means (KSigmas.seq ks).hasZero ax = (ax.draw (if 0 ∈ ks then [.line color x means] else []), .ok ()) := by
    intro ax
    unfold muLine KSigmas.hasZero
    by_cases h0 : (0 : ℝ) ∈ ks
    · simp only [h0, decide_true, if_true]
      unfold drawLine
      rw [if_pos ⟨by norm_num, by norm_num, hm.symm⟩, Plot.add_eq]
    · simp [h0]
  obtain ⟨pairs, h1, h2⟩ := sigmaLoop_ok hm hs color (ks := so) (fun k hk' => hk k (hperm.mem_iff.1 hk')) (ax.draw (if 0 ∈ ks then [.line color x means] else []))
  refine ⟨so.filter fun k => decide (k ≠ 0), pairs, ?_, hperm.filter _, hsorted.filter _, h2⟩
  unfold confidenceLines
  rw [hg.getStds, Plot.lift_bind_ok, Plot.bind_ok (hmu ax)]
  simp only [KSigmas.rest]
  rw [← hso, h1]
  simp

theorem sigmaLoop_error {x means stds : List ℝ} (hm : means.length = x.length) (hs : stds.length = x.length) (color : String) {ks : List ℝ}
    (hsorted : ks.Pairwise (· ≤ ·)) {k : ℝ} (hk : k ∈ ks) (h0 : k ≠ 0) (h5 : k < 1 / 5) (ax : Ax ℝ) :
    sigmaLoop color x means stds ks ax = (ax, .error .value) := by
  induction ks with
  | nil => cases hk
  | cons a as ih =>
    rw [List.pairwise_cons] at hsorted
    unfold sigmaLoop
    by_cases ha : a = 0
    · rw [if_pos ha]
      refine ih hsorted.2 ?_
      rcases List.mem_cons.1 hk with rfl | h
      · exact absurd ha h0
      · exact h
    · rw [if_neg ha]
      have hak : a < 1 / 5 := by
        rcases List.mem_cons.1 hk with rfl | h
        · exact h5
        · exact lt_of_le_of_lt (hsorted.1 k h) h5
      obtain ⟨lo, hlo, -⟩ := offsetBy_ok (f := -a) (hs.trans hm.symm)
      rw [hlo, Plot.lift_bind_ok]
      refine Plot.bind_error ?_
      unfold drawLine
      rw [if_neg ?_]
      · rfl
      · rintro ⟨h1, h2, -⟩
        rcases lt_or_gt_of_ne ha with hneg | hpos
        · have : 1 / a < 0 := one_div_neg.2 hneg
          nlinarith
        · rw [div_mul_div_comm, div_le_one (by positivity)] at h2
          linarith

/-- **C72** is false for a factor below 0.2 (except 0): its opacity `0.2 / k` is not allowed, and no line of any factor is drawn. -/
theorem C72_small_counterexample {x means s : List ℝ} (hm : means.length = x.length) (hs : s.length = x.length) {stds variances : Option (List ℝ)}
    (hg : GivenStds stds variances s) (color : String) {ks : List ℝ} {k : ℝ} (hk : k ∈ ks) (h0 : k ≠ 0) (h5 : k < 1 / 5) (ax : Ax ℝ) :
    confidenceLines x means stds variances color (.seq ks) ax =
      (ax.draw (if 0 ∈ ks then [.line color x means] else []), .error .value) := by
  unfold confidenceLines
  rw [hg.getStds, Plot.lift_bind_ok]
  have hmu : muLine color x means (KSigmas.seq ks).hasZero ax = (ax.draw (if 0 ∈ ks then [.line color x means] else []), .ok ()) := by
    unfold muLine KSigmas.hasZero
    by_cases h0 : (0 : ℝ) ∈ ks
    · simp only [h0, decide_true, if_true]
      unfold drawLine
      rw [if_pos ⟨by norm_num, by norm_num, hm.symm⟩, Plot.add_eq]
    · simp [h0]
  rw [Plot.bind_ok hmu]
  refine sigmaLoop_error hm hs color ?_ (List.mem_mergeSort.2 hk) h0 h5 _
  refine (List.pairwise_mergeSort (le := fun a b : ℝ => decide (a ≤ b)) ?_ ?_ ks).imp fun h => of_decide_eq_true h
  · intro a b c h1 h2
    simp only [decide_eq_true_eq] at *
    exact h1.trans h2
  · intro a b
    simp only [Bool.or_eq_true, decide_eq_true_eq]
    exact le_total a b

/-- **C72** is false for an iterator of factors without 0: the test for 0 uses it up, nothing is drawn. -/
theorem C72_iterator_counterexample {x means s : List ℝ} {stds variances : Option (List ℝ)}
    (hg : GivenStds stds variances s) (color : String) {ks : List ℝ} (hk : ∀ k ∈ ks, k ≠ 0) (ax : Ax ℝ) :
    confidenceLines x means stds variances color (.iter ks) ax = (ax, .ok ()) := by
  unfold confidenceLines
  rw [hg.getStds, Plot.lift_bind_ok]
  have h0 : ¬ (0 : ℝ) ∈ ks := fun h => hk 0 h rfl
  have hr : (KSigmas.iter ks).rest = [] := by
    unfold KSigmas.rest
    have : ks.dropWhile (fun k => decide (k ≠ 0)) = [] := by
      clear h0
      induction ks with
      | nil => rfl
      | cons k ks ih =>
        rw [List.dropWhile_cons_of_pos (by simpa using hk k (by simp))]
        exact ih fun k hk' => hk k (by simp [hk'])
    dsimp only
    rw [this]; rfl
  rw [hr]
  simp [KSigmas.hasZero, h0, muLine, sigmaLoop]
  rfl

theorem sigmaLoop_filter (color : String) (x means stds : List ℝ) (ks : List ℝ) :
    sigmaLoop color x means stds ks = sigmaLoop color x means stds (ks.filter fun k => decide (k ≠ 0)) := by
  induction ks with
  | nil => rfl
  | cons k ks ih =>
    by_cases h0 : k = 0
    · rw [List.filter_cons_of_neg (by simpa using h0), ← ih]
      conv_lhs => unfold sigmaLoop
      rw [if_pos h0]
    · rw [List.filter_cons_of_pos (by simpa using h0)]
      unfold sigmaLoop
      rw [if_neg h0, if_neg h0, ih]

theorem sorted_mergeSort (ks : List ℝ) : (ks.mergeSort (fun a b => decide (a ≤ b))).Pairwise (· ≤ ·) := by
  refine (List.pairwise_mergeSort (le := fun a b : ℝ => decide (a ≤ b)) ?_ ?_ ks).imp fun h => of_decide_eq_true h
  · intro a b c h1 h2
    simp only [decide_eq_true_eq] at *
    exact h1.trans h2
  · intro a b
    simp only [Bool.or_eq_true, decide_eq_true_eq]
    exact le_total a b

/-- **C72** for every other iterator (or generator) of factors: exactly the lines for the factors from the first 0 on are drawn, the
factors `skipped` in front of it are lost to the test for 0. -/
theorem C72_iterator_exact {skipped rest : List ℝ} (hk : ∀ k ∈ skipped, k ≠ 0) (x means : List ℝ) (stds variances : Option (List ℝ))
    (color : String) (ax : Ax ℝ) :
    confidenceLines x means stds variances color (.iter (skipped ++ 0 :: rest)) ax =
      confidenceLines x means stds variances color (.seq (0 :: rest)) ax := by
  have hr : (KSigmas.iter (skipped ++ 0 :: rest)).rest = rest := by
    unfold KSigmas.rest
    have : (skipped ++ 0 :: rest).dropWhile (fun k => decide (k ≠ 0)) = 0 :: rest := by
      induction skipped with
      | nil => simp
      | cons k ks ih =>
        rw [List.cons_append, List.dropWhile_cons_of_pos (by simpa using hk k (by simp))]
        exact ih fun k hk' => hk k (by simp [hk'])
    dsimp only
    rw [this]; rfl
  have hz : (KSigmas.iter (skipped ++ 0 :: rest)).hasZero = (KSigmas.seq (0 :: rest)).hasZero := by simp [KSigmas.hasZero]
  unfold confidenceLines
  rw [hr, hz]
  suffices e : ∀ s, sigmaLoop color x means s (rest.mergeSort fun a b => decide (a ≤ b)) =
      sigmaLoop color x means s ((0 :: rest).mergeSort fun a b => decide (a ≤ b)) by
    simp only [e]; rfl
  intro s
  rw [sigmaLoop_filter _ _ _ _ (rest.mergeSort _), sigmaLoop_filter _ _ _ _ (List.mergeSort _ _)]
  congr 1
  refine List.Perm.eq_of_pairwise (fun a b _ _ h1 h2 => le_antisymm h1 h2) ((sorted_mergeSort rest).filter _)
    ((sorted_mergeSort (0 :: rest)).filter _) ?_
  refine ((List.mergeSort_perm _ _).filter _).trans (.trans ?_ ((List.mergeSort_perm _ _).filter _).symm)
  rw [List.filter_cons_of_neg (by simp)]

/-- the factor 1 in front of the 0 is lost -/
example : (confidenceLines [0, 1] [1, 2] (some [1, 2]) none "c" (.iter [1, 0, 2]) Ax.new).1.shapes =
    [.line "c" [0, 1] [1, 2], .line "c" [0, 1] [-1, -2], .line "c" [0, 1] [3, 6]] := by
  rw [show ([1, 0, 2] : List ℝ) = [1] ++ 0 :: [2] from rfl, C72_iterator_exact (by simp)]
  have hsort : ([0, 2] : List ℝ).mergeSort (fun a b => decide (a ≤ b)) = [0, 2] := by
    simp [List.mergeSort]
  simp [confidenceLines, getStds, KSigmas.hasZero, KSigmas.rest, hsort, muLine, sigmaLoop, drawLine, offsetBy, Plot.bind_apply, Ax.new]
  norm_num

example : (confidenceLines [0, 1] [1, 2] (some [1, 2]) none "c" (.seq [1, 0]) Ax.new).1.shapes =
    [.line "c" [0, 1] [1, 2], .line "c" [0, 1] [0, 0], .line "c" [0, 1] [2, 4]] := by
  have hsort : ([1, 0] : List ℝ).mergeSort (fun a b => decide (a ≤ b)) = [0, 1] := by
    simp [List.mergeSort]
  simp [confidenceLines, getStds, KSigmas.hasZero, KSigmas.rest, hsort, muLine, sigmaLoop, drawLine, offsetBy, Plot.bind_apply, Ax.new]
  norm_num

example : (confidenceGradients [0, 1] [1, 2] none (some [1, 4]) "c" 2 1 Ax.new).1.shapes =
    [.band "c" [0, 1] [1, 2] [1, 2], .band "c" [0, 1] [1 / 2, 1] [3 / 2, 3]] := by
  have h4 : Real.sqrt 4 = 2 := by rw [show (4 : ℝ) = 2 ^ 2 by norm_num]; exact Real.sqrt_sq (by norm_num)
  simp [confidenceGradients, getStds, bandLoop, drawBand, offsetBy, Plot.bind_apply, Ax.new, h4]
  norm_num [h4, Plot.bind_apply]

end C72
end PyPDP
