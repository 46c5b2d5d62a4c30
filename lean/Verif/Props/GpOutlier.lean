/-
C183: one value far from the others takes over the Gaussian process surrogate.
-/
import Mathlib.Analysis.InnerProductSpace.PiL2
import Verif.Props.GpCover
import Verif.Props.GpLinear
import Verif.Props.PdpBand

namespace PyPDP
open Spec Filter

/-- the standard deviation without replacing 0 -/
noncomputable def plainDeviation (y : List ℝ) : ℝ := √(squares (targetMean y) y / y.length)

theorem plainDeviation_norm {n : Nat} {y : List ℝ} (hn : y.length = n) :
    plainDeviation y = ‖(WithLp.toLp 2 fun i : Fin n => y.getD i 0 - targetMean y : EuclideanSpace ℝ (Fin n))‖ / √n := by
  subst hn
  unfold plainDeviation squares
  rw [sum_map_fin, Real.sqrt_div' _ (Nat.cast_nonneg _), EuclideanSpace.norm_eq]
  simp [List.getD_eq_getElem?_getD]

theorem plainDeviation_combined (v : ℝ) {a b : List ℝ} (h : a.length = b.length) :
    |plainDeviation (combined 1 v a b) - |v| * plainDeviation b| ≤ plainDeviation a := by
  have hl := combined_length 1 v h
  rw [plainDeviation_norm hl, plainDeviation_norm h.symm, plainDeviation_norm (y := a) rfl, mul_div_assoc', ← sub_div, abs_div, abs_of_nonneg (Real.sqrt_nonneg _)]
  refine div_le_div_of_nonneg_right ?_ (Real.sqrt_nonneg _)
  rw [← Real.norm_eq_abs v, ← norm_smul]
  refine (abs_norm_sub_norm_le _ _).trans (le_of_eq (congrArg _ ?_))
  ext i
  have := combined_getD 1 v h i
  simp only [PiLp.sub_apply, PiLp.smul_apply, smul_eq_mul]
  rw [this, combined_mean 1 v h]
  ring

theorem plainDeviation_le_spread (y : List ℝ) : plainDeviation y ≤ spread y := by
  classical
  unfold spread
  split
  · rename_i h
    have : squares (targetMean y) y = 0 := by
      unfold squares
      refine List.sum_eq_zero fun x hx => ?_
      obtain ⟨v, hv, rfl⟩ := List.mem_map.1 hx
      have hm : targetMean y = v := by
        have hrep : y = List.replicate y.length v := List.eq_replicate_of_mem fun w hw => h w hw v hv
        have hlen : (y.length : ℝ) ≠ 0 := by
          have := List.length_pos_of_mem hv
          positivity
        unfold targetMean
        rw [hrep]
        simp
        field_simp
      rw [hm]
      ring
    unfold plainDeviation
    rw [this]
    simp
  · exact le_rfl

theorem spread_of_different {y : List ℝ} {v w : ℝ} (hv : v ∈ y) (hw : w ∈ y) (h : v ≠ w) : spread y = plainDeviation y := by
  classical
  unfold spread
  rw [if_neg fun hall => h (hall v hv w hw)]
  rfl

/-- only the `i`-th of `n` values is not 0 but 1 -/
def Spec.onlyAt (n i : Nat) : List ℝ := (List.replicate n 0).set i 1

theorem set_eq_combined (y : List ℝ) (i : Nat) (v : ℝ) : y.set i v = combined 1 v (y.set i 0) (onlyAt y.length i) := by
  apply List.ext_getElem
  · simp [combined, onlyAt]
  · intro j h1 h2
    simp only [combined, onlyAt, List.getElem_zipWith, List.getElem_set, List.getElem_replicate]
    split <;> simp

theorem onlyAt_length (n i : Nat) : (onlyAt n i).length = n := by simp [onlyAt]

theorem onlyAt_spread {n i : Nat} (h2 : 2 ≤ n) (hi : i < n) : spread (onlyAt n i) = plainDeviation (onlyAt n i) := by
  refine spread_of_different (v := 1) (w := 0) ?_ ?_ one_ne_zero
  · rw [List.mem_iff_getElem]
    exact ⟨i, by rw [onlyAt_length]; exact hi, by simp [onlyAt]⟩
  · rw [List.mem_iff_getElem]
    rcases Nat.eq_zero_or_pos i with rfl | h
    · exact ⟨1, by rw [onlyAt_length]; exact h2, by simp [onlyAt]⟩
    · exact ⟨0, by rw [onlyAt_length]; omega, by simp [onlyAt, h.ne']⟩

theorem set_data {d : Nat} {X : List (List ℝ)} {y : List ℝ} (h : TrainingData d X y) (i : Nat) (v : ℝ) : TrainingData d X (y.set i v) :=
  ⟨h.rows, h.width, h.columns, by rw [List.length_set, h.targets]⟩

theorem onlyAt_data {d : Nat} {X : List (List ℝ)} {y : List ℝ} (h : TrainingData d X y) (i : Nat) : TrainingData d X (onlyAt y.length i) :=
  ⟨h.rows, h.width, h.columns, by rw [onlyAt_length, h.targets]⟩

/-- **C183** One value far from the others makes the surrogate uncertain everywhere: for every bound `S` and all rows, if the value is far enough from 0 then all standard deviations at these rows
exceed `S`. -/
theorem C183_uncertain {d : Nat} {k : Kernel} (hk : UnitCovariance d k) {X : List (List ℝ)} {y : List ℝ} (h : TrainingData d X y) (h2 : 2 ≤ y.length) {i : Nat}
    (hi : i < y.length) {Q : List (List ℝ)} (hQ : ∀ r ∈ Q, r.length = d) (S : ℝ) (s : GpSurrogate) :
    ∃ V, ∀ v, V ≤ |v| → ∃ s', s.fit (fun _ _ => k) X (y.set i v) = (s', .ok ()) ∧ ∀ r ∈ Q, ∃ m σ, s'.predict [r] = .ok ([m], [σ]) ∧ S < σ := by
  obtain ⟨s0, hf0, -, mu0, sd0, hr0, -, hpos0⟩ := C99_unit (fun _ _ => hk) (onlyAt_data h i)
  have hfit0 : s.fit (fun _ _ => k) X (onlyAt y.length i) = (s0, .ok ()) :=
    (fit_ok (fun _ _ => hk.1) (onlyAt_data h i) s).trans ((fit_ok (fun _ _ => hk.1) (onlyAt_data h i) GpSurrogate.new).symm.trans hf0)
  have hc := spread_pos (onlyAt_data h i).targets_ne
  -- the condition at one row
  have hone : ∀ r ∈ {r | r ∈ Q}, ∀ᶠ t : ℝ in atTop, S < sd0 r / spread (onlyAt y.length i) * (t * spread (onlyAt y.length i) - spread (y.set i 0)) := by
    intro r hr
    have hp := (hpos0 r (hQ r hr)).1
    have : Tendsto (fun t : ℝ => sd0 r / spread (onlyAt y.length i) * (t * spread (onlyAt y.length i) - spread (y.set i 0))) atTop atTop := by
      refine Tendsto.const_mul_atTop (div_pos hp hc) ?_
      exact tendsto_atTop_add_const_right _ _ (Tendsto.atTop_mul_const hc tendsto_id)
    exact this.eventually_gt_atTop S
  have hall := (eventually_all_finite (List.finite_toSet Q)).2 hone
  obtain ⟨V, hV⟩ := eventually_atTop.1 hall
  refine ⟨V, fun v hv => ?_⟩
  obtain ⟨s1, hf1, -, mu1, sd1, hr1, -, hpos1⟩ := C99_unit (fun _ _ => hk) (set_data h i v)
  have hfit1 : s.fit (fun _ _ => k) X (y.set i v) = (s1, .ok ()) :=
    (fit_ok (fun _ _ => hk.1) (set_data h i v) s).trans ((fit_ok (fun _ _ => hk.1) (set_data h i v) GpSurrogate.new).symm.trans hf1)
  refine ⟨s1, hfit1, fun r hr => ⟨mu1 r, sd1 r, by rw [hr1 [r] (by simp) (by simpa using hQ r hr)]; rfl, ?_⟩⟩
  have hstd := C178_std hk.1 (set_data h i v) (onlyAt_data h i) hfit1 hfit0 (r := r) (by rw [hr1 [r] (by simp) (by simpa using hQ r hr)]; rfl)
    (by rw [hr0 [r] (by simp) (by simpa using hQ r hr)]; rfl)
  have hc1 := spread_pos (set_data h i v).targets_ne
  rw [div_eq_iff hc1.ne'] at hstd
  rw [hstd]
  refine (hV |v| hv r hr).trans_le (mul_le_mul_of_nonneg_left ?_ (div_nonneg (hpos0 r (hQ r hr)).1.le hc.le))
  have hdev := (abs_le.1 (plainDeviation_combined v (a := y.set i 0) (b := onlyAt y.length i) (by simp [onlyAt]))).1
  rw [← set_eq_combined] at hdev
  have h3 := plainDeviation_le_spread (y.set i 0)
  have h4 := plainDeviation_le_spread (y.set i v)
  rw [onlyAt_spread h2 hi]
  linarith

/-- **C183** So a further evaluation can make the surrogate less certain at every row, wherever it is: this depends on its value only. -/
theorem C183_further {d : Nat} {k : Kernel} (hk : UnitCovariance d k) {X : List (List ℝ)} {y : List ℝ} (h : TrainingData d X y) {q : List ℝ} (hq : q.length = d)
    {Q : List (List ℝ)} (hQ : ∀ r ∈ Q, r.length = d) {s s1 : GpSurrogate} (hs : s.fit (fun _ _ => k) X y = (s1, .ok ())) :
    ∃ v s2, s1.fit (fun _ _ => k) (X ++ [q]) (y ++ [v]) = (s2, .ok ()) ∧
      ∀ r ∈ Q, ∃ m1 σ1 m2 σ2, s1.predict [r] = .ok ([m1], [σ1]) ∧ s2.predict [r] = .ok ([m2], [σ2]) ∧ σ1 < σ2 := by
  have hlen : 1 ≤ y.length := by
    have := List.length_pos_of_ne_nil h.targets_ne
    omega
  have h' : TrainingData d (X ++ [q]) (y ++ [0]) :=
    ⟨by simp, by simpa [or_imp, forall_and, hq] using h.width, h.columns, by simp [h.targets]⟩
  obtain ⟨V, hV⟩ := C183_uncertain hk h' (i := y.length) (by simp; omega) (by simp) hQ (spread y) s1
  obtain ⟨s2, hf2, hr2⟩ := hV V (le_abs_self V)
  rw [List.set_append_right _ _ le_rfl] at hf2
  refine ⟨V, s2, by simpa using hf2, fun r hr => ?_⟩
  obtain ⟨m2, σ2, hp2, hlt⟩ := hr2 r hr
  obtain ⟨s1', hf1, -, mu, sd, hrow, -, hpos⟩ := C99_unit (fun _ _ => hk) h
  obtain rfl : s1 = s1' := (Prod.mk.inj (hs.symm.trans ((fit_ok (fun _ _ => hk.1) h s).trans ((fit_ok (fun _ _ => hk.1) h GpSurrogate.new).symm.trans hf1)))).1
  exact ⟨mu r, sd r, m2, σ2, by rw [hrow [r] (by simp) (by simpa using hQ r hr)]; rfl, hp2, ((hpos r (hQ r hr)).2.1).trans_lt hlt⟩

/-- **C183** How much the other values matter: with the `i`-th value `v` (different from some other one) the confidence bound of a row is, up to a constant, `v` times the confidence bound after
evaluations that were all 0 except for a 1 at this point. The constant is the size of the prediction and `|tau|` times the uncertainty with the value 0 instead of `v`. -/
theorem C183_bound {d : Nat} {k : Kernel} (hk : Covariance d k) {X : List (List ℝ)} {y : List ℝ} (h : TrainingData d X y) (h2 : 2 ≤ y.length) {i : Nat}
    (hi : i < y.length) {v : ℝ} (hv0 : 0 ≤ v) (hv : ∃ w ∈ y.set i v, w ≠ v) {s sv s0 s1 : GpSurrogate} (hsv : s.fit (fun _ _ => k) X (y.set i v) = (sv, .ok ()))
    (hs0 : s.fit (fun _ _ => k) X (y.set i 0) = (s0, .ok ())) (hs1 : s.fit (fun _ _ => k) X (onlyAt y.length i) = (s1, .ok ())) {r : List ℝ}
    {mv σv m0 σ0 m1 σ1 : ℝ} (hpv : sv.predict [r] = .ok ([mv], [σv])) (hp0 : s0.predict [r] = .ok ([m0], [σ0])) (hp1 : s1.predict [r] = .ok ([m1], [σ1]))
    (minimize : Bool) (tau : ℝ) : |lcbValue minimize tau mv σv - v * lcbValue minimize tau m1 σ1| ≤ |m0| + |tau| * σ0 := by
  have hdv := set_data h i v
  have hd0 := set_data h i 0
  have hd1 := onlyAt_data h i
  have hmean : mv = 1 * m0 + v * m1 := by
    refine C178_mean hk hd0 hd1 1 v hs0 hs1 ?_ hp0 hp1 hpv
    rw [← set_eq_combined]
    exact hsv
  have e0 := C178_std hk hd0 hd1 hs0 hs1 hp0 hp1
  have ev := C178_std hk hdv hd1 hsv hs1 hpv hp1
  have c0 := spread_pos hd0.targets_ne
  have c1 := spread_pos hd1.targets_ne
  have cv := spread_pos hdv.targets_ne
  obtain ⟨n0, -⟩ := C175_weights (fun _ _ => hk) hd0 hs0 hp0
  obtain ⟨n1, -⟩ := C175_weights (fun _ _ => hk) hd1 hs1 hp1
  obtain ⟨w, hw, hwv⟩ := hv
  have hspv := spread_of_different hw (List.mem_set hi v) hwv
  have hsp1 := onlyAt_spread h2 hi
  have hdev := plainDeviation_combined v (a := y.set i 0) (b := onlyAt y.length i) (by simp [onlyAt])
  rw [← set_eq_combined, ← hspv, ← hsp1, abs_of_nonneg hv0] at hdev
  have hsig : |σv - v * σ1| ≤ σ0 := by
    obtain ⟨g, hg⟩ : ∃ g, g = σ1 / spread (onlyAt y.length i) := ⟨_, rfl⟩
    have hg0 : 0 ≤ g := hg ▸ div_nonneg n1 c1.le
    rw [← hg, div_eq_iff c0.ne'] at e0
    rw [← hg, div_eq_iff cv.ne'] at ev
    rw [eq_div_iff c1.ne'] at hg
    rw [ev, ← hg, e0, show g * spread (y.set i v) - v * (g * spread (onlyAt y.length i)) = g * (spread (y.set i v) - v * spread (onlyAt y.length i)) by ring, abs_mul,
      abs_of_nonneg hg0]
    exact mul_le_mul_of_nonneg_left (hdev.trans (plainDeviation_le_spread _)) hg0
  have htau : |tau * (σv - v * σ1)| ≤ |tau| * σ0 := by
    rw [abs_mul]
    exact mul_le_mul_of_nonneg_left hsig (abs_nonneg _)
  have hm0 := abs_le.1 (le_refl |m0|)
  have ht := abs_le.1 htau
  rw [abs_le]
  cases minimize <;> simp only [lcbValue, if_true, Bool.false_eq_true, if_false, hmean] <;> constructor <;> nlinarith

/-- **C183** One huge value decides alone what is evaluated next: if it is large enough, the configuration that is chosen maximises the confidence bound after evaluations that were all 0 except
for a 1 at this point, whatever the other values were. -/
theorem C183_choice {S : Type} {d : Nat} {k : Kernel} (hk : Covariance d k) {X : List (List ℝ)} {y : List ℝ} (h : TrainingData d X y) (h2 : 2 ≤ y.length) {i : Nat}
    (hi : i < y.length) (minimize : Bool) (tau : ℝ) (eta : Option ℝ) (names : List String) (dr : Drawer (Config ℝ) S) {n : Int} (hn : 2 ≤ n) (rng : S)
    (hdraw : ∀ c ∈ (dr.draw rng n.toNat).1, c.vector.length = d) (s : GpSurrogate) :
    ∃ V, ∀ v, V ≤ v → ∀ sv s1, s.fit (fun _ _ => k) X (y.set i v) = (sv, .ok ()) → s.fit (fun _ _ => k) X (onlyAt y.length i) = (s1, .ok ()) →
      ∃ c, (getOptimum names dr n (gpAcq (.lcb tau) minimize sv eta) rng).2 = .ok (.config c) ∧ c ∈ (dr.draw rng n.toNat).1 ∧
        ∀ c' ∈ (dr.draw rng n.toNat).1, gpAcq (.lcb tau) minimize s1 eta c' ≤ gpAcq (.lcb tau) minimize s1 eta c := by
  obtain ⟨s0, hf0, -, ⟨mu0, sd0, hr0, -⟩, -⟩ := C99_fit (fun _ _ => hk) (set_data h i 0) s
  obtain ⟨s1, hf1, -, ⟨mu1, sd1, hr1, -⟩, -⟩ := C99_fit (fun _ _ => hk) (onlyAt_data h i) s
  obtain ⟨A, hA⟩ : ∃ A : Config ℝ → ℝ, A = gpAcq (.lcb tau) minimize s1 eta := ⟨_, rfl⟩
  obtain ⟨C, hC⟩ : ∃ C : Config ℝ → ℝ, C = fun c => |mu0 c.vector| + |tau| * sd0 c.vector := ⟨_, rfl⟩
  have hpair : ∀ c ∈ {c | c ∈ (dr.draw rng n.toNat).1}, ∀ᶠ v : ℝ in atTop, ∀ c' ∈ {c | c ∈ (dr.draw rng n.toNat).1}, A c < A c' → C c + C c' < v * (A c' - A c) := by
    intro c hc
    refine (eventually_all_finite (List.finite_toSet _)).2 fun c' hc' => ?_
    by_cases hlt : A c < A c'
    · filter_upwards [(Tendsto.atTop_mul_const (sub_pos.2 hlt) tendsto_id).eventually_gt_atTop (C c + C c')] with v hv _ using hv
    · exact Eventually.of_forall fun v hlt' => absurd hlt' hlt
  have hother : ∀ᶠ v : ℝ in atTop, ∀ w ∈ {w | w ∈ y}, w < v := (eventually_all_finite (List.finite_toSet _)).2 fun w _ => eventually_gt_atTop w
  obtain ⟨V, hV⟩ := eventually_atTop.1 (((eventually_all_finite (List.finite_toSet _)).2 hpair).and (hother.and (eventually_ge_atTop 0)))
  refine ⟨V, fun v hv sv s1' hfv hf1' => ?_⟩
  obtain rfl : s1 = s1' := (Prod.mk.inj (hf1.symm.trans hf1')).1
  obtain ⟨hbig, hlt, hv0⟩ := hV v hv
  obtain ⟨sv', hfv', -, ⟨muv, sdv, hrv, -⟩, -⟩ := C99_fit (fun _ _ => hk) (set_data h i v) s
  obtain rfl : sv = sv' := (Prod.mk.inj (hfv.symm.trans hfv')).1
  obtain ⟨c, hopt, b, hb, hmax, -⟩ := C39_best_partial names dr hn (gpAcq (.lcb tau) minimize sv eta) rng
  have hc := List.mem_of_getElem? hb
  refine ⟨c, by rw [hopt], hc, fun c' hc' => ?_⟩
  by_contra hgt
  rw [← hA, not_le] at hgt
  have hne : ∃ w ∈ y.set i v, w ≠ v := by
    obtain ⟨j, hj, hji⟩ : ∃ j, j < y.length ∧ i ≠ j := by
      rcases Nat.eq_zero_or_pos i with h0 | h0
      · exact ⟨1, by omega, by omega⟩
      · exact ⟨0, by omega, by omega⟩
    refine ⟨y[j], ?_, (hlt _ (List.getElem_mem hj)).ne⟩
    rw [List.mem_iff_getElem]
    exact ⟨j, by simpa using hj, by rw [List.getElem_set_ne hji]⟩
  have hpr : ∀ {t : GpSurrogate} {mu sd : List ℝ → ℝ}, RowWise d t.predict mu sd → ∀ c ∈ (dr.draw rng n.toNat).1, t.predict [c.vector] = .ok ([mu c.vector], [sd c.vector]) := by
    intro t mu sd hr c hc
    rw [hr [c.vector] (by simp) (by simpa using hdraw c hc)]
    rfl
  have hval : ∀ {t : GpSurrogate} {mu sd : List ℝ → ℝ}, RowWise d t.predict mu sd → ∀ c ∈ (dr.draw rng n.toNat).1,
      gpAcq (.lcb tau) minimize t eta c = lcbValue minimize tau (mu c.vector) (sd c.vector) := by
    intro t mu sd hr c hc
    unfold gpAcq
    rw [hpr hr c hc]
    rfl
  have hb : ∀ c ∈ (dr.draw rng n.toNat).1, |gpAcq (.lcb tau) minimize sv eta c - v * A c| ≤ C c := by
    intro c hc
    rw [hA, hval hrv c hc, hval hr1 c hc, hC]
    exact C183_bound hk h h2 hi hv0 hne hfv hf0 hf1 (hpr hrv c hc) (hpr hr0 c hc) (hpr hr1 c hc) minimize tau
  have h1 := (abs_le.1 (hb c hc)).2
  have h3 := (abs_le.1 (hb c' hc')).1
  have h4 := hbig c hc c' hc' hgt
  have h5 := not_lt.1 (hmax c' hc')
  nlinarith

/-- values 0 and 2 at two points, and a third point where the evaluation failed and a penalty was recorded: with the default kernel, whatever its length scale, a large enough
penalty makes the surrogate less certain than before, at both points and in the middle -/
example {ℓ : ℝ} (hℓ : 0 < ℓ) {s s1 : GpSurrogate} (hs : s.fit (fun _ _ => matern ℓ) [[0], [1]] [0, 2] = (s1, .ok ())) :
    ∃ v s2, s1.fit (fun _ _ => matern ℓ) ([[0], [1]] ++ [[1 / 4]]) ([0, 2] ++ [v]) = (s2, .ok ()) ∧
      ∀ r ∈ [[0], [1], [1 / 2]], ∃ m1 σ1 m2 σ2, s1.predict [r] = .ok ([m1], [σ1]) ∧ s2.predict [r] = .ok ([m2], [σ2]) ∧ σ1 < σ2 :=
  C183_further (matern_unit hℓ 1) ⟨by simp, by simp, le_rfl, rfl⟩ rfl (by simp) hs

end PyPDP
