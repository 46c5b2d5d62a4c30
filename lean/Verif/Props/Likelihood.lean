/-
C63, C64, C82: the likelihood of a region, its improvement over the full region, the mean confidence.
-/
import Verif.Spec.Likelihood
import Verif.Props.RegionPdp
import Verif.Props.PdIntegral
import Verif.Props.Scaling

namespace PyPDP
open Spec ProbabilityTheory

/-! ### the Gaussian log density -/

theorem normLogpdf_eq {x μ v : ℝ} (hv : 0 < v) : normLogpdf x μ (Real.sqrt v) = .ok (Real.log (gaussianPDFReal μ v.toNNReal x)) := by
  have hs : 0 < Real.sqrt v := Real.sqrt_pos.2 hv
  have h2 : Real.sqrt (2 * Real.pi) ≠ 0 := (Real.sqrt_pos.2 (by positivity)).ne'
  rw [normLogpdf, if_pos hs, gaussianPDFReal, Real.coe_toNNReal _ hv.le, Real.log_mul (by positivity) (Real.exp_ne_zero _), Real.log_inv,
    Real.log_exp, Real.sqrt_mul (x := 2 * Real.pi) (by positivity) v, Real.log_mul h2 hs.ne', div_pow, Real.sq_sqrt hv.le]
  congr 1
  field_simp
  ring

theorem log_gaussian {x μ v : ℝ} (hv : 0 < v) :
    Real.log (gaussianPDFReal μ v.toNNReal x) = Real.log (gaussianPDFReal x v.toNNReal x) - (x - μ) ^ 2 / (2 * v) := by
  rw [gaussianPDFReal, gaussianPDFReal, Real.coe_toNNReal _ hv.le, Real.log_mul (by positivity) (Real.exp_ne_zero _),
    Real.log_mul (by positivity) (Real.exp_ne_zero _), Real.log_exp, Real.log_exp]
  ring

theorem gaussLoss_min {P : Nat} (hP : 1 ≤ P) {μ var truth : Nat → ℝ} (hv : ∀ p < P, 0 < var p) :
    gaussLoss P truth var truth ≤ gaussLoss P μ var truth ∧
      (gaussLoss P truth var truth = gaussLoss P μ var truth ↔ ∀ p < P, μ p = truth p) := by
  have hP' : (0 : ℝ) < P := by exact_mod_cast hP
  have h : gaussLoss P μ var truth = gaussLoss P truth var truth + (∑ p ∈ Finset.range P, (truth p - μ p) ^ 2 / (2 * var p)) / P := by
    unfold gaussLoss
    have : ∑ p ∈ Finset.range P, Real.log (gaussianPDFReal (μ p) (var p).toNNReal (truth p)) =
        ∑ p ∈ Finset.range P, Real.log (gaussianPDFReal (truth p) (var p).toNNReal (truth p)) -
          ∑ p ∈ Finset.range P, (truth p - μ p) ^ 2 / (2 * var p) := by
      rw [← Finset.sum_sub_distrib]
      exact Finset.sum_congr rfl fun p hp => log_gaussian (hv p (Finset.mem_range.1 hp))
    rw [this]; ring
  have hnn : ∀ p ∈ Finset.range P, 0 ≤ (truth p - μ p) ^ 2 / (2 * var p) := fun p hp => by
    have := hv p (Finset.mem_range.1 hp)
    positivity
  have hs := Finset.sum_nonneg hnn
  refine ⟨by rw [h]; have := div_nonneg hs hP'.le; linarith, ?_⟩
  rw [h]
  constructor
  · intro e
    have e0 : ∑ p ∈ Finset.range P, (truth p - μ p) ^ 2 / (2 * var p) = 0 := by
      have : (∑ p ∈ Finset.range P, (truth p - μ p) ^ 2 / (2 * var p)) / (P : ℝ) = 0 := by linarith
      rcases div_eq_zero_iff.1 this with h | h
      · exact h
      · exact absurd h hP'.ne'
    intro p hp
    have := (Finset.sum_eq_zero_iff_of_nonneg hnn).1 e0 p (Finset.mem_range.2 hp)
    have hvp := hv p hp
    rcases div_eq_zero_iff.1 this with h | h
    · have := pow_eq_zero_iff (two_ne_zero) |>.1 h; linarith
    · linarith
  · intro e
    have : ∑ p ∈ Finset.range P, (truth p - μ p) ^ 2 / (2 * var p) = 0 :=
      Finset.sum_eq_zero fun p hp => by rw [e p (Finset.mem_range.1 hp)]; simp
    rw [this]; simp

/-! ### averages of a region -/

theorem avg_getD {P : Nat} {y : List (List ℝ)} {out : List ℝ} (h : IsAverage P y out) (hy : ∀ r ∈ y, r.length = P) {p : Nat} (hp : p < P) :
    out[p]? = some ((y.map fun r => r.getD p 0).sum / (y.length : ℝ)) := by
  obtain ⟨col, hc, ho⟩ := h.2 p hp
  have hs := (column_sum hc).resolve_right (by rintro ⟨r, hr, hle⟩; rw [hy r hr] at hle; omega)
  rw [ho, hs]

theorem region_means {P F : Nat} {n : Node ℝ} (hn : RegionShape P F n) (hne : curves n ≠ []) :
    ∃ mu var, meanRows n.y = .ok mu ∧ meanRows n.v = .ok var ∧ mu.length = P ∧ var.length = P ∧
      (∀ p < P, mu[p]? = some (meanY p (curves n))) ∧ ∀ p < P, var[p]? = some (meanVar p (curves n)) := by
  have hl := hn.curves_length
  have hxl : n.x.length ≠ 0 := by rw [← hl]; exact fun h => hne (List.length_eq_zero_iff.1 h)
  obtain ⟨y, hy, ay⟩ := meanRows_spec (n := n.x.length) hxl (y := n.y) ⟨hn.xy.symm, hn.ys⟩
  obtain ⟨v, hv, av⟩ := meanRows_spec (n := n.x.length) hxl (y := n.v) ⟨by rw [hn.xy, hn.yv], hn.vs⟩
  refine ⟨y, v, hy, hv, ay.1, av.1, fun p hp => ?_, fun p hp => ?_⟩
  · rw [avg_getD ay hn.ys hp, meanY, hl, hn.xy]
    congr 3
    rw [← hn.map_y, List.map_map]; rfl
  · rw [avg_getD av hn.vs hp, meanVar, hl, hn.xy, hn.yv]
    congr 3
    rw [← hn.map_v, List.map_map]; rfl

/-! ### C63 -/

theorem notSelected_eq (space : ConfigSpace ℝ) (selected : List (Hp ℝ)) :
    notSelected space selected = space.filter fun h => decide (∀ s ∈ selected, s.name ≠ h.name) := by
  unfold notSelected
  apply List.filter_congr
  intro hp _
  simp

theorem idx_of_feature {space : ConfigSpace ℝ} (hwf : space.WF) {hp : Hp ℝ} {f : Nat} (h : IsFeature space hp f) :
    ConfigSpace.idx space hp.name = .ok f := by
  have := (C06_positions hwf [hp] [f]).2 (.cons h .nil)
  rw [getSelectedIdx, List.mapM_cons] at this
  obtain ⟨i, hi, this⟩ := Py.bind_eq_ok.1 this
  have := Except.ok.inj this
  rw [hi]
  simpa using this

/-- **C63** For a function with an exact partial dependence, the negative log-likelihood of a region that is not empty and has positive
variances is minus the average log density of that partial dependence at the grid points under the normal distributions given by the
region's mean curve and mean variance. -/
theorem C63_gaussian {inv : Hp ℝ → Val ℝ → ℝ} {P : Nat} {space : ConfigSpace ℝ} {selected : List (Hp ℝ)} {n : Node ℝ}
    (hn : RegionShape P space.length n) (hne : curves n ≠ []) (hv : ∀ p < P, 0 < meanVar p (curves n)) {fn : TrueFn} {truth : Nat → ℝ}
    (ht : IsTruth inv P space selected n fn truth) :
    negativeLogLikelihood inv space selected n fn =
      .ok (gaussLoss P (fun p => meanY p (curves n)) (fun p => meanVar p (curves n)) truth) := by
  obtain ⟨hp, rest, l, u, log, f, pd, rfl, hdec, hf, hpd, htr⟩ := ht.out
  obtain ⟨mu, var, hmu, hvar, lmu, lvar, amu, avar⟩ := region_means hn hne
  have hx0 : 0 < n.x.length := by rw [← hn.curves_length]; exact List.length_pos_iff.2 hne
  obtain ⟨m, hm⟩ : ∃ m, n.x[0]? = some m := ⟨_, List.getElem?_eq_getElem hx0⟩
  have hml : m.length = P := (hn.xs m (List.mem_of_getElem? hm)).1
  have htrue : m.mapM (trueAt inv space hp f pd) = .ok ((List.range P).map truth) := by
    rw [Py.mapM_eq_ok, List.forall₂_iff_get]
    refine ⟨by simp [hml], fun i h1 h2 => ?_⟩
    obtain ⟨t, e1, e2, e3, e4⟩ := htr i (by omega)
    rw [at3, hm, Option.bind_some, List.getElem?_eq_getElem h1, Option.bind_some] at e1
    simp only [List.get_eq_getElem, List.getElem_map, List.getElem_range]
    rw [trueAt, pyGet, e1]
    dsimp only
    rw [Py.ok_bind, C01_unscale_is_interpolation hdec e2 e3, Py.ok_bind, e4]
  have hlp : (((List.range P).map truth).zip (mu.zip (var.map Real.sqrt))).mapM (fun p => normLogpdf p.1 p.2.1 p.2.2) =
      .ok ((List.range P).map fun p => Real.log (gaussianPDFReal (meanY p (curves n)) (meanVar p (curves n)).toNNReal (truth p))) := by
    rw [Py.mapM_eq_ok, List.forall₂_iff_get]
    refine ⟨by simp [lmu, lvar], fun i h1 h2 => ?_⟩
    have hi : i < P := by simpa using h2
    have e1 := amu i hi
    have e2 := avar i hi
    rw [List.getElem?_eq_getElem (by omega)] at e1 e2
    simp only [List.get_eq_getElem, List.getElem_zip, List.getElem_map, List.getElem_range, Option.some.inj e1, Option.some.inj e2]
    exact normLogpdf_eq (hv i hi)
  have hP : P ≠ 0 := by have := hn.pos; omega
  rw [negativeLogLikelihood, notSelected_eq]
  simp only [pyGet, List.getElem?_cons_zero, hm, Py.ok_bind, idx_of_feature hdec.wf hf, hpd, htrue, hmu, hvar, hlp]
  simp only [mean, List.length_map, List.length_range, if_neg hP, Py.ok_bind, Py.pure_eq, gaussLoss]
  rfl

/-- **C63** Among regions that agree in the first curve's grid and in the mean variances, the ones whose mean curve is the exact partial
dependence, and only those, have the smallest negative log-likelihood. -/
theorem C63_smallest {inv : Hp ℝ → Val ℝ → ℝ} {P : Nat} {space : ConfigSpace ℝ} {selected : List (Hp ℝ)} {n n' : Node ℝ}
    (hn : RegionShape P space.length n) (hne : curves n ≠ []) (hn' : RegionShape P space.length n') (hne' : curves n' ≠ [])
    (hv : ∀ p < P, 0 < meanVar p (curves n)) (hvv : ∀ p < P, meanVar p (curves n') = meanVar p (curves n)) {fn : TrueFn} {truth : Nat → ℝ}
    (ht : IsTruth inv P space selected n fn truth) (ht' : IsTruth inv P space selected n' fn truth)
    (hexact : ∀ p < P, meanY p (curves n) = truth p) :
    ∃ a a', negativeLogLikelihood inv space selected n fn = .ok a ∧ negativeLogLikelihood inv space selected n' fn = .ok a' ∧ a ≤ a' ∧
      (a = a' ↔ ∀ p < P, meanY p (curves n') = truth p) := by
  refine ⟨_, _, C63_gaussian hn hne hv ht, C63_gaussian hn' hne' (fun p hp => by rw [hvv p hp]; exact hv p hp) ht', ?_⟩
  have e1 : gaussLoss P (fun p => meanY p (curves n)) (fun p => meanVar p (curves n)) truth =
      gaussLoss P truth (fun p => meanVar p (curves n)) truth := by
    unfold gaussLoss
    congr 2
    exact Finset.sum_congr rfl fun p hp => by dsimp only; rw [hexact p (Finset.mem_range.1 hp)]
  have e2 : gaussLoss P (fun p => meanY p (curves n')) (fun p => meanVar p (curves n')) truth =
      gaussLoss P (fun p => meanY p (curves n')) (fun p => meanVar p (curves n)) truth := by
    unfold gaussLoss
    congr 2
    exact Finset.sum_congr rfl fun p hp => by dsimp only; rw [hvv p (Finset.mem_range.1 hp)]
  rw [e1, e2]
  exact gaussLoss_min hn.pos hv

/-- calling a function of one float hyperparameter -/
theorem call_single {inv : Hp ℝ → Val ℝ → ℝ} {f : BlackboxFn ℝ} {hp : Hp ℝ} {l u : ℝ} {log : Bool} (hcs : f.cs = [hp])
    (hk : hp.kind = .float l u log) {x : ℝ} (h1 : l ≤ x) (h2 : x ≤ u) :
    f.call inv [(hp.name, .num x)] = f.value ⟨[inv hp (.num x)], [(hp.name, .num x)]⟩ := by
  have hb : bindValue [(hp.name, (.num x : Val ℝ))] hp = .ok (hp, .num x) := by
    simp [bindValue, Hp.legal, hk, h1, h2]
  rw [BlackboxFn.call, mkConfiguration, hcs, if_neg (by simp)]
  simp [hb]

/-- **C63**, partial: StyblinskiTang with one selected float hyperparameter (missing: several, see `C63_two_selected_counterexample`): the density is that of the average of the function over the box of
the other hyperparameters. `g` is the function in terms of the coordinates. -/
theorem C63_styblinski_tang_partial {inv : Hp ℝ → Val ℝ → ℝ} {order : SpaceOrder ℝ} (hord : ∀ l, (order l).Perm l) {P : Nat}
    {space cs : ConfigSpace ℝ} {hp hpT : Hp ℝ} {n : Node ℝ} (hn : RegionShape P space.length n) (hne : curves n ≠ [])
    (hv : ∀ p < P, 0 < meanVar p (curves n)) {l u : ℝ} {log logT : Bool} (hdec : Declares space hp.name l u log) {f : Nat} (hf : IsFeature space hp f)
    {t : Nat → ℝ} (ht : ∀ p < P, at3 n.x 0 p f = some (t p) ∧ 0 ≤ t p ∧ t p ≤ 1)
    (hcs : cs.WF) (hT : hpT ∈ cs) (hTn : hpT.name = hp.name) (hTk : hpT.kind = .float l u logT) {axes : List Axis} (hane : axes ≠ [])
    (hax : List.Forall₂ (fun (h : Hp ℝ) (a : Axis) => h.name = a.name ∧
      ((∃ log, h.kind = .float a.lower a.upper log) ∨ ∃ log, h.kind = .integer a.lower a.upper log)) (cs.filter fun h => decide (h.name ≠ hp.name)) axes)
    (hlen : ∀ a ∈ axes, a.lower < a.upper) :
    ∃ g : Assignment → ℝ, (∀ ρ, styblinskiTangValue cs (assignConfig cs ρ) = .ok (g ρ)) ∧
      negativeLogLikelihood inv space [hp] n (trueStyblinskiTang order cs) =
        .ok (gaussLoss P (fun p => meanY p (curves n)) (fun p => meanVar p (curves n))
          fun p => average axes g fun _ => interpolate l u log (t p)) := by
  obtain ⟨sel, hsel⟩ : ∃ s, s = cs.filter fun h => decide (h.name ≠ hp.name) := ⟨_, rfl⟩
  rw [← hsel] at hax
  have hden : List.Forall₂ (Denotes cs) (sel.map .hp) sel := by
    clear hsel hax
    induction sel with
    | nil => exact .nil
    | cons a as ih => exact .cons rfl ih
  have hne2 : sel.map SelItem.hp ≠ [] := by
    intro h
    have h : sel = [] := by simpa using h
    rw [h] at hax
    cases hax
    exact hane rfl
  have hmem : ∀ h ∈ sel, h ∈ cs := fun h hh => by rw [hsel] at hh; exact (List.mem_filter.1 hh).1
  have hnd : (sel.map Hp.name).Nodup := by
    rw [hsel]
    exact List.Sublist.nodup (List.Sublist.map _ List.filter_sublist) hcs
  obtain ⟨F, off, g, hpd, hg, hFv, -⟩ := C17_pd_integral hord hcs hden hne2 hmem hnd hax hlen
  have hax' : List.Forall₂ (fun (h : Hp ℝ) a => h.numerical?.isSome ∧ axisOf h = some a) sel axes := by
    refine hax.imp fun h a e => ?_
    obtain ⟨e1, ⟨lg, e2⟩ | ⟨lg, e2⟩⟩ := e <;> simp [axisOf, Hp.numerical?, e1, e2]
  have hF := pd_ok (order := order) hcs hden hne2 hax'
  rw [hpd] at hF
  have hF := (Prod.mk.inj (Except.ok.inj hF)).1
  have hred : F.cs = [hpT] := by
    rw [hF]
    dsimp only
    have : (cs.filter fun h => sel.all fun s => decide (s.name ≠ h.name)) = [hpT] := by
      have h1 : (cs.filter fun h => sel.all fun s => decide (s.name ≠ h.name)) = cs.filter fun h => decide (h.name = hp.name) := by
        apply List.filter_congr
        intro h hh
        rw [Bool.eq_iff_iff]
        simp only [List.all_eq_true, decide_eq_true_eq]
        constructor
        · intro e
          by_contra hc
          exact e h (by rw [hsel]; exact List.mem_filter.2 ⟨hh, by simpa using hc⟩) rfl
        · intro e s hs es
          rw [hsel] at hs
          have := (List.mem_filter.1 hs).2
          simp only [decide_eq_true_eq] at this
          exact this (es.trans e)
      rw [h1]
      have h2 : ∀ cs : List (Hp ℝ), (cs.map Hp.name).Nodup → hpT ∈ cs → (cs.filter fun h => decide (h.name = hp.name)) = [hpT] := by
        intro cs
        induction cs with
        | nil => intro _ h; cases h
        | cons a as ih =>
          intro hnd hm
          rw [List.map_cons, List.nodup_cons] at hnd
          rcases List.mem_cons.1 hm with rfl | hm
          · rw [List.filter_cons_of_pos (by simpa using hTn), List.filter_eq_nil_iff.2]
            intro b hb
            simp only [decide_eq_true_eq]
            intro e
            exact hnd.1 (List.mem_map.2 ⟨b, hb, by rw [e, hTn]⟩)
          · have : a.name ≠ hp.name := fun e => hnd.1 (List.mem_map.2 ⟨hpT, hm, by rw [e, hTn]⟩)
            rw [List.filter_cons_of_neg (by simpa using this), ih hnd.2 hm]
      exact h2 cs hcs hT
    rw [this]
    exact List.perm_singleton.1 (hord _)
  have hvec : ∀ (v : List ℝ) (vals : List (String × Val ℝ)), F.value ⟨v, vals⟩ = F.value ⟨[], vals⟩ := by
    intro v vals; rw [hF]; rfl
  refine ⟨g, hg, C63_gaussian hn hne hv ⟨hp, [], l, u, log, f, F, rfl, hdec, hf, ?_, fun p hp' => ?_⟩⟩
  · have : (cs.filter fun h => decide (∀ s ∈ [hp], s.name ≠ h.name)) = sel := by
      rw [hsel]
      apply List.filter_congr
      intro h _
      simp [ne_comm]
    simp only [trueStyblinskiTang]
    rw [this, hpd]; rfl
  · obtain ⟨e1, e2, e3⟩ := ht p hp'
    refine ⟨t p, e1, e2, e3, ?_⟩
    have hmono := (interpolate_strictMono hdec).monotone
    have b1 := hmono e2
    have b2 := hmono e3
    rw [interpolate_zero hdec] at b1
    rw [interpolate_one hdec] at b2
    rw [← hTn, call_single hred hTk b1 b2, hvec, ← hFv]
    congr 1
    rw [hred]; rfl

/-- **C63** errors: if every hyperparameter of the true function is selected, the partial dependence of StyblinskiTang raises ValueError;
functions without an exact partial dependence raise NotImplementedError. -/
theorem C63_errors (inv : Hp ℝ → Val ℝ → ℝ) (order : SpaceOrder ℝ) {space : ConfigSpace ℝ} {hp : Hp ℝ} {rest : List (Hp ℝ)}
    (hin : ∃ h ∈ space, h.name = hp.name) (n : Node ℝ) (cs : ConfigSpace ℝ) :
    ((∀ h ∈ cs, ∃ s ∈ hp :: rest, s.name = h.name) →
      negativeLogLikelihood inv space (hp :: rest) n (trueStyblinskiTang order cs) = .error .value) ∧
    negativeLogLikelihood inv space (hp :: rest) n (trueDefault cs) = .error .notImplemented := by
  obtain ⟨i, hi⟩ : ∃ i, ConfigSpace.idx space hp.name = .ok i := by
    unfold ConfigSpace.idx
    cases hf : space.findIdx? (fun h => h.name == hp.name) with
    | some i => exact ⟨i, rfl⟩
    | none =>
      rw [List.findIdx?_eq_none_iff] at hf
      obtain ⟨h, h1, h2⟩ := hin
      have := hf h h1
      simp [h2] at this
  constructor
  · intro h
    have : notSelected cs (hp :: rest) = [] := by
      rw [notSelected, List.filter_eq_nil_iff]
      intro a ha
      obtain ⟨s, hs, e⟩ := h a ha
      simp only [decide_eq_true_eq, not_not]
      exact List.mem_map.2 ⟨s, hs, e⟩
    rw [negativeLogLikelihood]
    simp [pyGet, hi, trueStyblinskiTang, this, styblinskiTangPdIntegral]
  · rw [negativeLogLikelihood]
    simp [pyGet, hi, trueDefault, pdIntegralDefault]

/-- **C63** fails for two (or more) selected hyperparameters: although the exact partial dependence of StyblinskiTang exists, the method
calls it with the first hyperparameter only, which raises ValueError for every region. -/
theorem C63_two_selected_counterexample (inv : Hp ℝ → Val ℝ → ℝ) {order : SpaceOrder ℝ} (hord : ∀ l, (order l).Perm l) {P : Nat}
    {space cs : ConfigSpace ℝ} {hp hp2 : Hp ℝ} {rest : List (Hp ℝ)} {n : Node ℝ} (hn : RegionShape P space.length n) (hne : curves n ≠ [])
    {l u : ℝ} {log : Bool} (hdec : Declares space hp.name l u log) (hcs : cs.WF) (hnum : ∀ h ∈ cs, h.isNumerical = true)
    (h2 : ∃ h ∈ cs, h.name = hp2.name) (hdist : hp.name ≠ hp2.name) :
    negativeLogLikelihood inv space (hp :: hp2 :: rest) n (trueStyblinskiTang order cs) = .error .value := by
  obtain ⟨hT, hTm, hTn⟩ := h2
  obtain ⟨h0, h0m, h0n, -⟩ := hdec.mem
  by_cases hemp : ∀ h ∈ cs, ∃ s ∈ hp :: hp2 :: rest, s.name = h.name
  · exact (C63_errors inv order ⟨h0, h0m, h0n⟩ n cs).1 hemp
  obtain ⟨f, hf⟩ := List.mem_iff_getElem?.1 h0m
  have hidx := idx_of_feature hdec.wf (hp := hp) (f := f) ⟨h0, hf, h0n⟩
  have hfl : f < space.length := (List.getElem?_eq_some_iff.1 hf).1
  obtain ⟨sel, hsel⟩ : ∃ s, s = notSelected cs (hp :: hp2 :: rest) := ⟨_, rfl⟩
  have hden : List.Forall₂ (Denotes cs) (sel.map .hp) sel := by
    clear hsel
    induction sel with
    | nil => exact .nil
    | cons a as ih => exact .cons rfl ih
  have hne2 : sel.map SelItem.hp ≠ [] := by
    intro h
    have h : sel = [] := by simpa using h
    apply hemp
    intro a ha
    by_contra hc
    have : a ∈ sel := by
      rw [hsel, notSelected_eq]
      refine List.mem_filter.2 ⟨ha, ?_⟩
      simp only [decide_eq_true_eq]
      exact fun s hs e => hc ⟨s, hs, e⟩
    rw [h] at this; cases this
  obtain ⟨F, off, hpd, hmemF, -⟩ := C18_reduced_space (order := order) hord hcs hden hne2 fun h hh => hnum h (by
    rw [hsel] at hh; exact (List.mem_filter.1 hh).1)
  have hTF : hT ∈ F.cs := by
    refine (hmemF hT).2 ⟨hTm, fun s hs e => ?_⟩
    rw [hsel, notSelected_eq] at hs
    have := (List.mem_filter.1 hs).2
    simp only [decide_eq_true_eq] at this
    exact this hp2 (by simp) (by rw [e, hTn])
  have hcall : ∀ x : ℝ, F.call inv [(hp.name, .num x)] = .error .value := by
    intro x
    rw [BlackboxFn.call, mkConfiguration]
    by_cases hu : ∃ p ∈ [(hp.name, (.num x : Val ℝ))], ∀ h ∈ F.cs, h.name ≠ p.1
    · rw [if_pos hu]; rfl
    · rw [if_neg hu, mapM_error_of hTF (e := .value)]
      · rfl
      · have : hp.name ≠ hT.name := by rw [hTn]; exact hdist
        simp [bindValue, this]
      · intro b _ e' he
        unfold bindValue at he
        split at he
        · cases he; rfl
        · split at he <;> cases he; rfl
  have hx0 : 0 < n.x.length := by rw [← hn.curves_length]; exact List.length_pos_iff.2 hne
  obtain ⟨m, hm⟩ : ∃ m, n.x[0]? = some m := ⟨_, List.getElem?_eq_getElem hx0⟩
  obtain ⟨m1, m2⟩ := hn.xs m (List.mem_of_getElem? hm)
  obtain ⟨r, rs, rfl⟩ : ∃ r rs, m = r :: rs := List.exists_cons_of_ne_nil (by
    rintro rfl; have := hn.pos; simp at m1; omega)
  have hr : f < r.length := by rw [m2 r (by simp)]; exact hfl
  have hrow : trueAt inv space hp f F r = .error .value := by
    rw [trueAt, pyGet, List.getElem?_eq_getElem hr]
    dsimp only
    rw [Py.ok_bind, unscaleFloat_interpolate hdec, Py.ok_bind, hcall]
  rw [negativeLogLikelihood]
  simp only [pyGet, List.getElem?_cons_zero, hm, Py.ok_bind, hidx, trueStyblinskiTang, ← hsel, hpd, Py.map_ok, List.mapM_cons, hrow, Py.error_bind]

/-! ### C64 -/

/-- **C64** For a root with negative log-likelihood `r ≠ 0`, `delta_nll` of a region with negative log-likelihood `a` is 0 iff `a = r`,
positive iff `a < r`, and in general the relative decrease `(r - a) / |r|`; in particular 0 for the full region itself. -/
theorem C64_delta {inv : Hp ℝ → Val ℝ → ℝ} {space : ConfigSpace ℝ} {selected : List (Hp ℝ)} {n full : Node ℝ} {fn : TrueFn} {a r : ℝ}
    (ha : negativeLogLikelihood inv space selected n fn = .ok a) (hr : negativeLogLikelihood inv space selected full fn = .ok r) (h0 : r ≠ 0) :
    (∃ d, deltaNll inv space selected n full fn = .ok d ∧ (0 < d ↔ a < r) ∧ (d = 0 ↔ a = r) ∧ r - d * |r| = a) ∧
      deltaNll inv space selected full full fn = .ok 0 := by
  have hp : 0 < |r| := abs_pos.2 h0
  refine ⟨⟨(r - a) / |r|, by simp [deltaNll, ha, hr, calculateLogDelta, h0], ?_, ?_, ?_⟩, by simp [deltaNll, hr, calculateLogDelta, h0]⟩
  · rw [div_pos_iff_of_pos_right hp, sub_pos]
  · rw [div_eq_zero_iff, or_iff_left hp.ne', sub_eq_zero, eq_comm]
  · rw [div_mul_cancel₀ _ hp.ne']; ring

/-- **C64** Whether `delta_nll` is positive does not depend on the true function's scale of the root: for two regions compared with the
same root, the one with the smaller negative log-likelihood has the larger value. -/
theorem C64_order {inv : Hp ℝ → Val ℝ → ℝ} {space : ConfigSpace ℝ} {selected : List (Hp ℝ)} {n n' full : Node ℝ} {fn : TrueFn} {a a' r d d' : ℝ}
    (ha : negativeLogLikelihood inv space selected n fn = .ok a) (ha' : negativeLogLikelihood inv space selected n' fn = .ok a')
    (hr : negativeLogLikelihood inv space selected full fn = .ok r) (h0 : r ≠ 0)
    (hd : deltaNll inv space selected n full fn = .ok d) (hd' : deltaNll inv space selected n' full fn = .ok d') : d < d' ↔ a' < a := by
  have hp : 0 < |r| := abs_pos.2 h0
  obtain ⟨⟨e, h1, -, -, h2⟩, -⟩ := C64_delta ha hr h0
  obtain ⟨⟨e', h1', -, -, h2'⟩, -⟩ := C64_delta ha' hr h0
  obtain rfl := Except.ok.inj (h1.symm.trans hd)
  obtain rfl := Except.ok.inj (h1'.symm.trans hd')
  constructor
  · intro h; have := mul_lt_mul_of_pos_right h hp; linarith
  · intro h
    have : e * |r| < e' * |r| := by linarith
    exact lt_of_mul_lt_mul_right this hp.le

/-! ### C82 -/

theorem sum_flatten_sqrt {P : Nat} {v : List (List ℝ)} (hv : ∀ r ∈ v, r.length = P) (φ : ℝ → ℝ) :
    (v.flatten.map φ).sum = (v.map fun r => ∑ p ∈ Finset.range P, φ (r.getD p 0)).sum ∧ v.flatten.length = v.length * P := by
  induction v with
  | nil => simp
  | cons a as ih =>
    obtain ⟨h1, h2⟩ := ih fun r hr => hv r (by simp [hr])
    have ha := hv a (by simp)
    have e : (a.map φ).sum = ∑ p ∈ Finset.range P, φ (a.getD p 0) := by
      rw [← ha, ← Fin.sum_univ_eq_sum_range (fun p => φ (a.getD p 0)), ← List.sum_ofFn]
      congr 1
      refine List.ext_getElem (by simp) fun i h1 h2 => ?_
      simp only [List.getElem_map, List.getElem_ofFn]
      rw [getD_lt (by simpa using h1)]
    refine ⟨by rw [List.flatten_cons, List.map_append, List.sum_append, e, h1, List.map_cons, List.sum_cons], ?_⟩
    rw [List.flatten_cons, List.length_append, h2, ha, List.length_cons]; ring

/-- **C82** `mean_confidence` of a region that is not empty is the average standard deviation over all its curves and grid points. -/
theorem C82_mean_confidence {P F : Nat} {n : Node ℝ} (hn : RegionShape P F n) (hne : curves n ≠ []) :
    meanConfidence n = .ok (((curves n).map fun c => ∑ p ∈ Finset.range P, Real.sqrt (c.2.2.getD p 0)).sum / ((curves n).length * P)) := by
  obtain ⟨h1, h2⟩ := sum_flatten_sqrt hn.vs Real.sqrt
  have hl : n.v.length = (curves n).length := by rw [hn.curves_length, hn.xy, hn.yv]
  have h0 : (curves n).length * P ≠ 0 := by
    have := hn.pos
    have := List.length_pos_iff.2 hne
    positivity
  rw [meanConfidence, mean, List.length_map, h2, hl, if_neg h0, h1]
  congr 2
  · conv_lhs => rw [← hn.map_v, List.map_map]
    rfl
  · push_cast; rfl

/-- the mean of the squares is at least the square of the mean -/
theorem sq_sum_le (l : List ℝ) : l.sum ^ 2 ≤ l.length * (l.map (· ^ 2)).sum := by
  have key : (l.length : ℝ) * (l.map (· ^ 2)).sum - l.sum ^ 2 ≥ 0 := by
    induction l with
    | nil => simp
    | cons a as ih =>
      have h : ∀ as : List ℝ, (as.map fun b => (a - b) ^ 2).sum = as.length * a ^ 2 - 2 * a * as.sum + (as.map (· ^ 2)).sum := by
        intro as
        induction as with
        | nil => simp
        | cons b bs ih => simp only [List.map_cons, List.sum_cons, ih, List.length_cons]; push_cast; ring
      have hn : 0 ≤ (as.map fun b => (a - b) ^ 2).sum := List.sum_nonneg fun x hx => by
        obtain ⟨b, -, rfl⟩ := List.mem_map.1 hx; positivity
      rw [h] at hn
      simp only [List.map_cons, List.sum_cons, List.length_cons]
      push_cast
      nlinarith
  linarith

/-- **C82** the mean confidence lies between 0 and the root of the mean variance (the standard deviation used by the likelihood, averaged
over the grid), with non-negative variances. -/
theorem C82_bounds {P F : Nat} {n : Node ℝ} (hn : RegionShape P F n) (hne : curves n ≠ []) (hv : ∀ c ∈ curves n, ∀ a ∈ c.2.2, 0 ≤ a) :
    ∃ m, meanConfidence n = .ok m ∧ 0 ≤ m ∧ m ^ 2 ≤ (∑ p ∈ Finset.range P, meanVar p (curves n)) / P := by
  have h0 : (0 : ℝ) < (curves n).length := by exact_mod_cast List.length_pos_iff.2 hne
  have hP : (0 : ℝ) < P := by exact_mod_cast hn.pos
  have hl : n.v.length = (curves n).length := by rw [hn.curves_length, hn.xy, hn.yv]
  obtain ⟨h1, h2⟩ := sum_flatten_sqrt hn.vs Real.sqrt
  obtain ⟨h3, -⟩ := sum_flatten_sqrt hn.vs id
  have hnn : ∀ a ∈ n.v.flatten, 0 ≤ a := by
    intro a ha
    obtain ⟨r, hr, ha⟩ := List.mem_flatten.1 ha
    rw [← hn.map_v] at hr
    obtain ⟨c, hc, rfl⟩ := List.mem_map.1 hr
    exact hv c hc a ha
  have hmv : (∑ p ∈ Finset.range P, meanVar p (curves n)) = n.v.flatten.sum / (curves n).length := by
    have e : n.v.flatten.sum = ((curves n).map fun c => ∑ p ∈ Finset.range P, c.2.2.getD p 0).sum := by
      have := h3
      rw [List.map_id] at this
      rw [this, ← hn.map_v, List.map_map]; rfl
    rw [e]
    unfold meanVar
    rw [← Finset.sum_div]
    congr 1
    generalize curves n = L
    induction L with
    | nil => simp
    | cons a as ih => simp only [List.map_cons, List.sum_cons, Finset.sum_add_distrib, ih]
  refine ⟨_, C82_mean_confidence hn hne, ?_, ?_⟩
  · refine div_nonneg (List.sum_nonneg fun x hx => ?_) (by positivity)
    obtain ⟨c, -, rfl⟩ := List.mem_map.1 hx
    exact Finset.sum_nonneg fun p _ => Real.sqrt_nonneg _
  · have e : ((curves n).map fun c => ∑ p ∈ Finset.range P, Real.sqrt (c.2.2.getD p 0)).sum = (n.v.flatten.map Real.sqrt).sum := by
      rw [h1, ← hn.map_v, List.map_map]; rfl
    have hq := sq_sum_le (n.v.flatten.map Real.sqrt)
    rw [List.map_map, List.length_map, h2, hl] at hq
    have hsq : n.v.flatten.map ((fun x => x ^ 2) ∘ Real.sqrt) = n.v.flatten := by
      conv_rhs => rw [← List.map_id n.v.flatten]
      exact List.map_congr_left fun a ha => Real.sq_sqrt (hnn a ha)
    rw [hsq] at hq
    push_cast at hq
    rw [e, hmv, div_pow, div_div, div_le_div_iff₀ (by positivity) (by positivity)]
    have hN : 0 < ((curves n).length : ℝ) * P := by positivity
    nlinarith [mul_le_mul_of_nonneg_right hq hN.le]

/-- **C82** an empty region has no mean confidence (nan) -/
theorem C82_empty {n : Node ℝ} (h : n.v = []) : meanConfidence n = .error .nan := by
  simp [meanConfidence, h, mean]

/-! ### concrete cases -/

/-- a region with two curves on two grid points of `x1 ∈ [-5, 5]`, in a space with a second hyperparameter -/
def exSpace : ConfigSpace ℝ := [⟨"x1", .float (-5) 5 false⟩, ⟨"x2", .float 0 2 false⟩]
noncomputable def exRegion : Node ℝ := ⟨0, [[[0, 1 / 4], [1, 1 / 4]], [[0, 1 / 2], [1, 1 / 2]]], [[1, 2], [3, 4]], [[1, 4], [3, 4]], []⟩

theorem exRegion_shape : RegionShape 2 exSpace.length exRegion := by
  refine ⟨by norm_num, rfl, rfl, ?_, ?_, ?_⟩ <;> simp [exRegion, exSpace]

/-- the hypotheses of `C63_styblinski_tang_partial` hold for it, with means 2, 3 and variances 2, 4 -/
example (inv : Hp ℝ → Val ℝ → ℝ) : ∃ g : Assignment → ℝ, (∀ ρ, styblinskiTangValue exSpace (assignConfig exSpace ρ) = .ok (g ρ)) ∧
    negativeLogLikelihood inv exSpace [⟨"x1", .float (-5) 5 false⟩] exRegion (trueStyblinskiTang id exSpace) =
      .ok (-((Real.log (gaussianPDFReal 2 2 (average [⟨"x2", 0, 2⟩] g fun _ => -5)) +
        Real.log (gaussianPDFReal 3 4 (average [⟨"x2", 0, 2⟩] g fun _ => 5))) / 2)) := by
  have hv : ∀ p < 2, 0 < meanVar p (curves exRegion) := by
    intro p hp
    interval_cases p <;> norm_num [meanVar, curves, exRegion]
  have hd : Declares exSpace "x1" (-5) 5 false := ⟨by simp [exSpace, ConfigSpace.WF], ⟨⟨"x1", .float (-5) 5 false⟩, by simp [exSpace], rfl, .inl rfl⟩, by norm_num, by simp⟩
  obtain ⟨g, hg, h⟩ := C63_styblinski_tang_partial (inv := inv) (order := id) (fun _ => .refl _) (hp := ⟨"x1", .float (-5) 5 false⟩)
    (hpT := ⟨"x1", .float (-5) 5 false⟩) (cs := exSpace) exRegion_shape (by simp [curves, exRegion]) hv hd
    (f := 0) ⟨_, rfl, rfl⟩ (t := fun p => p) (by
      intro p hp
      interval_cases p <;> norm_num [at3, exRegion]) (by simp [exSpace, ConfigSpace.WF]) (by simp [exSpace]) rfl rfl
    (axes := [⟨"x2", 0, 2⟩]) (by simp) (by
      simp only [exSpace]
      exact .cons ⟨rfl, .inl ⟨_, rfl⟩⟩ .nil) (by norm_num)
  refine ⟨g, hg, ?_⟩
  rw [h]
  have m0 : meanY 0 (curves exRegion) = 2 := by norm_num [meanY, curves, exRegion]
  have m1 : meanY 1 (curves exRegion) = 3 := by norm_num [meanY, curves, exRegion]
  have v0 : meanVar 0 (curves exRegion) = 2 := by norm_num [meanVar, curves, exRegion]
  have v1 : meanVar 1 (curves exRegion) = 4 := by norm_num [meanVar, curves, exRegion]
  have i0 : interpolate (-5) 5 false ((0 : Nat) : ℝ) = -5 := by norm_num [interpolate]
  have i1 : interpolate (-5) 5 false ((1 : Nat) : ℝ) = 5 := by norm_num [interpolate]
  simp only [gaussLoss, Finset.sum_range_succ, Finset.sum_range_zero, m0, m1, v0, v1, i0, i1, zero_add]
  norm_num [Real.toNNReal_ofNat]

/-- its mean confidence -/
example : meanConfidence exRegion = .ok ((1 + 2 + (Real.sqrt 3 + 2)) / 4) := by
  have : Real.sqrt 4 = 2 := by rw [show (4 : ℝ) = 2 ^ 2 by norm_num]; exact Real.sqrt_sq (by norm_num)
  simp [meanConfidence, mean, exRegion, this]
  ring

end PyPDP
