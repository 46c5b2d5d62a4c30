/-
C143: integer hyperparameters have other numbers in a vector than `scale_float` gives them.
-/
import Verif.Props.Regions
import Verif.Spec.IntegerVectors

namespace PyPDP
open Spec

/-! ### thresholds -/

theorem unscale_linear {cs : ConfigSpace ℝ} {name : String} {l u t : ℝ} (hD : Declares cs name l u false) (h0 : 0 ≤ t) (h1 : t ≤ 1) :
    unscaleFloat t cs name = .ok (l + t * (u - l)) := by
  rw [C01_unscale_is_interpolation hD h0 h1]
  simp only [interpolate, Bool.false_eq_true, if_false]
  congr 1
  ring

/-- **C143** (where a threshold really is) On a linear axis, the samples whose number in the vector is at most `t` are not those with a value of
at most `unscale_float(t)`, but those with a value of at most `unscale_float(t) + h (2 t - 1)`. -/
theorem C143_side {cs : ConfigSpace ℝ} {name : String} {l u h t : ℝ} (hD : Declares cs name l u false) (hh : 0 ≤ h) (h0 : 0 ≤ t) (h1 : t ≤ 1) :
    ∃ w, unscaleFloat t cs name = .ok w ∧ ∀ v, intNumber h l u false v ≤ t ↔ v ≤ w + h * (2 * t - 1) := by
  refine ⟨_, unscale_linear hD h0 h1, fun v => ?_⟩
  have hlt := hD.lt
  simp only [intNumber, Bool.false_eq_true, if_false]
  rw [div_le_iff₀ (by linarith)]
  constructor <;> intro e <;> linarith

/-- **C143** (which values are misplaced) A sample is on the same side of the threshold in the vector and in natural units, unless its value is
strictly between the threshold in natural units and the real one (or equal to the larger of the two). -/
theorem C143_misplaced_iff {cs : ConfigSpace ℝ} {name : String} {l u h t w : ℝ} (hD : Declares cs name l u false) (hh : 0 ≤ h) (h0 : 0 ≤ t)
    (h1 : t ≤ 1) (hw : unscaleFloat t cs name = .ok w) (v : ℝ) :
    (intNumber h l u false v ≤ t ↔ v ≤ w) ↔ ¬ (min w (w + h * (2 * t - 1)) < v ∧ v ≤ max w (w + h * (2 * t - 1))) := by
  obtain ⟨w', hw', hs⟩ := C143_side hD hh h0 h1
  obtain rfl : w' = w := by rw [hw] at hw'; exact (Except.ok.inj hw').symm
  rw [hs v]
  generalize w' + h * (2 * t - 1) = z
  rw [min_lt_iff, le_max_iff]
  rcases le_or_gt v w' with a | a <;> rcases le_or_gt v z with b | b
  · simp [a, b, not_lt.2 a, not_lt.2 b]
  · simp [a, b, not_le.2 b]
  · simp [a, b, not_le.2 a]
  · simp [not_le.2 a, not_le.2 b]

/-- **C143** At the threshold 0.5 no value is misplaced. -/
theorem C143_middle {cs : ConfigSpace ℝ} {name : String} {l u h w : ℝ} (hD : Declares cs name l u false) (hh : 0 ≤ h)
    (hw : unscaleFloat (1 / 2) cs name = .ok w) (v : ℝ) : intNumber h l u false v ≤ 1 / 2 ↔ v ≤ w := by
  rw [C143_misplaced_iff hD hh (by norm_num) (by norm_num) hw]
  norm_num

/-- **C143** With at most three values no sample is misplaced, at thresholds that separate the lowest from the highest value. -/
theorem C143_small {cs : ConfigSpace ℝ} {name : String} {l u : ℤ} {h t w : ℝ} (hD : Declares cs name l u false) (hh : 0 ≤ h)
    (hsmall : u - l ≤ 2) (hlo : intNumber h l u false l ≤ t) (hhi : t < intNumber h l u false u)
    (hw : unscaleFloat t cs name = .ok w) {v : ℤ} (hv1 : l ≤ v) (hv2 : v ≤ u) : intNumber h l u false v ≤ t ↔ (v : ℝ) ≤ w := by
  have hlt : (l : ℝ) < u := hD.lt
  simp only [intNumber, Bool.false_eq_true, if_false] at hlo hhi ⊢
  rw [div_le_iff₀ (by linarith)] at hlo ⊢
  rw [lt_div_iff₀ (by linarith)] at hhi
  have h0 : 0 ≤ t := by
    by_contra hc
    have : t * ((u : ℝ) + h - (l - h)) < 0 := mul_neg_of_neg_of_pos (by linarith) (by linarith)
    linarith
  have h1 : t < 1 := by
    by_contra hc
    have : 1 * ((u : ℝ) + h - (l - h)) ≤ t * ((u : ℝ) + h - (l - h)) := mul_le_mul_of_nonneg_right (by linarith) (by linarith)
    linarith
  rw [unscale_linear hD h0 h1.le] at hw
  obtain rfl := Except.ok.inj hw
  rcases eq_or_lt_of_le hv1 with e | e
  · subst e
    have : 0 ≤ t * ((u : ℝ) - l) := mul_nonneg h0 (by linarith)
    constructor <;> intro _ <;> linarith
  rcases eq_or_lt_of_le hv2 with e' | e'
  · subst e'
    have : t * ((v : ℝ) - l) < 1 * ((v : ℝ) - l) := mul_lt_mul_of_pos_right h1 (by linarith)
    constructor <;> intro _ <;> linarith
  obtain rfl : v = l + 1 := by omega
  obtain rfl : u = l + 2 := by omega
  push_cast
  constructor
  · intro hc
    have : (1 - 2 * t) * (1 + h) ≤ 0 := by nlinarith
    have := nonpos_of_mul_nonpos_left this (by linarith)
    linarith
  · intro hc
    have : 1 - 2 * t ≤ 0 := by linarith
    nlinarith

/-- **C143** (with more values there are always misplaced ones) For every integer hyperparameter with at least four values there are thresholds at
which the sample with the second highest value is misplaced, although both sides have samples: those between
`(u - 1 - l + h) / (u - l + 2 h)` and `(u - 1 - l) / (u - l)`. -/
theorem C143_always {cs : ConfigSpace ℝ} {name : String} {l u : ℤ} {h : ℝ} (hD : Declares cs name l u false) (hh : 0 < h) (hh' : h < 1 / 2)
    (hlarge : 3 ≤ u - l) :
    ((u - 1 - l + h) / (u - l + 2 * h) : ℝ) < (u - 1 - l) / (u - l) ∧
    ∀ t : ℝ, (u - 1 - l + h) / (u - l + 2 * h) ≤ t → t < (u - 1 - l) / (u - l) →
      ∃ w, unscaleFloat t cs name = .ok w ∧ intNumber h l u false ((u - 1 : ℤ) : ℝ) ≤ t ∧ w < ((u - 1 : ℤ) : ℝ) ∧
        intNumber h l u false l ≤ t ∧ t < intNumber h l u false u := by
  have hl3 : (3 : ℝ) ≤ u - l := by exact_mod_cast hlarge
  constructor
  · rw [div_lt_div_iff₀ (by linarith) (by linarith)]
    nlinarith
  · intro t h1 h2
    rw [div_le_iff₀ (by linarith)] at h1
    rw [lt_div_iff₀ (by linarith)] at h2
    have h0 : 0 ≤ t := by
      by_contra hc
      have : t * ((u : ℝ) - l + 2 * h) < 0 := mul_neg_of_neg_of_pos (by linarith) (by linarith)
      linarith
    have h1' : t < 1 := by
      by_contra hc
      have : 1 * ((u : ℝ) - l) ≤ t * ((u : ℝ) - l) := mul_le_mul_of_nonneg_right (by linarith) (by linarith)
      linarith
    refine ⟨_, unscale_linear hD h0 h1'.le, ?_, ?_, ?_, ?_⟩
    · simp only [intNumber, Bool.false_eq_true, if_false]
      rw [div_le_iff₀ (by linarith)]
      push_cast
      linarith
    · push_cast
      linarith
    · simp only [intNumber, Bool.false_eq_true, if_false]
      rw [div_le_iff₀ (by linarith)]
      linarith
    · simp only [intNumber, Bool.false_eq_true, if_false]
      rw [lt_div_iff₀ (by linarith)]
      have : t * h < 1 * h := mul_lt_mul_of_pos_right h1' hh
      nlinarith

/-- **C143** (plots) A curve is drawn at `unscale_float(t)` with the prediction for the number `t`; the configuration with this value has the
number `t` only in the middle of the axis. -/
theorem C143_plot {cs : ConfigSpace ℝ} {name : String} {l u h t : ℝ} (hD : Declares cs name l u false) (hh : 0 < h) (h0 : 0 ≤ t) (h1 : t ≤ 1) :
    ∃ n, unscaleFloat t cs name = .ok n ∧ intNumber h l u false n - t = h * (1 - 2 * t) / (u - l + 2 * h) ∧
      (intNumber h l u false n = t ↔ t = 1 / 2) := by
  have hlt := hD.lt
  have key : intNumber h l u false (l + t * (u - l)) - t = h * (1 - 2 * t) / (u - l + 2 * h) := by
    simp only [intNumber, Bool.false_eq_true, if_false]
    rw [show (u + h - (l - h)) = u - l + 2 * h by ring]
    have : u - l + 2 * h ≠ 0 := by linarith
    rw [eq_div_iff this, sub_mul, div_mul_cancel₀ _ this]
    ring
  refine ⟨_, unscale_linear hD h0 h1, key, ?_⟩
  rw [← sub_eq_zero, key, div_eq_zero_iff, mul_eq_zero]
  constructor
  · rintro ((e | e) | e) <;> linarith
  · intro e
    exact .inl (.inr (by linarith))

/-! ### the leaf of a curve -/

/-- Sample `r` has the numbers of the configuration `cfg`: float values as `unscale_float` understands them, integer values as ConfigSpace
writes them. -/
def EncodedBy (h : ℝ) (space : ConfigSpace ℝ) (r : List ℝ) (cfg : Config ℝ) : Prop :=
  ∀ (f : Nat) hp e, space[f]? = some hp → r[f]? = some e →
    (∀ l u g, hp.kind = .float l u g → cfg.get? hp.name = some (.num (interpolate l u g e))) ∧
    (∀ l u g, hp.kind = .integer l u g → ∃ v, cfg.get? hp.name = some (.num v) ∧ e = intNumber h l u g v)

/-- no value of an integer hyperparameter is misplaced at one of the `N` thresholds -/
def NoneMisplaced (h : ℝ) (space : ConfigSpace ℝ) (N : Nat) (cfg : Config ℝ) : Prop :=
  ∀ hp ∈ space, ∀ l u g v, hp.kind = .integer l u g → cfg.get? hp.name = some (.num v) → ∀ j, 1 ≤ j → j ≤ N →
    (intNumber h l u g v ≤ threshold N j ↔ v ≤ interpolate l u g (threshold N j))

/-- **C143** (the leaf of a curve; partial: no value may be misplaced) For a space of float and integer hyperparameters: if the values of sample
number `s` are not misplaced at any threshold, its configuration is contained in a leaf exactly if its curve is one of the leaf's
curves; and this is so for exactly one leaf. -/
theorem C143_leaf_partial {h : ℝ} {space : ConfigSpace ℝ} (hwf : space.WF) (hall : AllDeclared space) {predict : Predict ℝ} {sel : Selection ℝ}
    {samples : List (List ℝ)} (hrows : ∀ r ∈ samples, r.length = space.length)
    {perAxis numSplits minPoints : Nat} (hg : 1 ≤ perAxis) {notSplittable : Option (Selection ℝ)} {p : DT ℝ}
    (hp : dtInit space predict sel samples perAxis numSplits minPoints notSplittable = .ok p)
    (hmem : ∀ hp ∈ p.cfg.selected, hp ∈ space) (hdist : (p.cfg.selected.map Hp.name).Nodup) (hne : p.cfg.selected ≠ [])
    {d : Int} (hd : 0 < d) {s : Nat} {r : List ℝ} (hs : samples[s]? = some r) {cfg : Config ℝ} (hcfg : EncodedBy h space r cfg)
    (hnone : NoneMisplaced h space numSplits cfg) :
    ∃ leaves curve i, (dtPartition p d).2 = .ok leaves ∧ (curves p.root)[s]? = some curve ∧ i < leaves.length ∧
      ∀ (j : Nat) m, leaves[j]? = some m →
        (curve ∈ curves m ↔ j = i) ∧ containsAll space m.conds cfg = .ok (decide (j = i)) := by
  have hcs : p.numSplits = numSplits := by
    obtain ⟨_, _, _, _, -, -, -, -, -, rfl⟩ := dtInit_ok hp
    rfl
  obtain ⟨hv, hvc, hlen, hsp⟩ := dt_valid hwf hrows hg hp hmem hdist hne
  have hrl : r.length = space.length := hrows r (List.mem_of_getElem? hs)
  obtain ⟨curve, hcurve⟩ : ∃ c, (curves p.root)[s]? = some c :=
    ⟨_, List.getElem?_eq_getElem (by rw [hlen]; exact (List.getElem?_eq_some_iff.1 hs).1)⟩
  have hfeat := dt_feature hwf hrows hg hp hmem hdist hne hs hcurve
  obtain ⟨L, h1, -, h3, -⟩ := partition_eq hv hd
  have hpm : ∀ hp ∈ p.possible, hp ∈ space := fun hp hm => hsp ▸ hv.possible_mem hp hm
  have hnum : ∀ hp ∈ p.possible, hp.isNumerical = true := by
    intro hp hm
    obtain ⟨l, u, g, -, hk | hk⟩ := allDeclared_kind hall (hpm hp hm) <;> simp [Hp.isNumerical, Hp.numerical?, hk]
  have hside : ∀ hp ∈ p.possible, ∀ f, space.idx hp.name = .ok f → ∀ j, 1 ≤ j → j ≤ p.numSplits →
      ∃ v w, cfg.get? hp.name = some (.num v) ∧ unscaleFloat (threshold p.numSplits j) space hp.name = .ok w ∧
        (v ≤ w ↔ featureOf f curve ≤ threshold p.numSplits j) := by
    intro hp hm f hf j hj1 hj2
    have hms := hpm hp hm
    obtain ⟨l, u, g, hD, hk⟩ := allDeclared_kind hall hms
    have hq1 := feature_of_idx hwf hms hf
    have hfl := (List.getElem?_eq_some_iff.1 hq1).1
    have her : r[f]? = some r[f] := List.getElem?_eq_getElem (by omega)
    have ht := threshold_unit hj2
    rw [hfeat hp hm f _ hf her]
    obtain ⟨e1, e2⟩ := hcfg f hp _ hq1 her
    rcases hk with hk | hk
    · exact ⟨_, _, e1 l u g hk, C01_unscale_is_interpolation hD ht.1 ht.2, (interpolate_strictMono hD).le_iff_le⟩
    · obtain ⟨v, hv1, hv2⟩ := e2 l u g hk
      refine ⟨v, _, hv1, C01_unscale_is_interpolation hD ht.1 ht.2, ?_⟩
      rw [hv2, hcs]
      exact (hnone hp hms l u g v hk hv1 j hj1 (hcs ▸ hj2)).symm
  have hnums : ∀ hp ∈ p.possible, ∃ x, cfg.get? hp.name = some (.num x) := by
    intro hp hm
    have hms := hpm hp hm
    obtain ⟨l, u, g, -, hk⟩ := allDeclared_kind hall hms
    obtain ⟨f, hf⟩ := List.mem_iff_getElem?.1 hms
    have hfl := (List.getElem?_eq_some_iff.1 hf).1
    obtain ⟨e1, e2⟩ := hcfg f hp _ hf (List.getElem?_eq_getElem (by omega))
    rcases hk with hk | hk
    · exact ⟨_, e1 l u g hk⟩
    · obtain ⟨v, hv1, -⟩ := e2 l u g hk
      exact ⟨v, hv1⟩
  obtain ⟨L', i, leaf, h1', hleaf, hcont, -⟩ := C57_exactly_one_leaf hv hnum hd hnums
  rw [h1] at h1'
  obtain rfl := Except.ok.inj h1'
  refine ⟨L, curve, i, by rw [h1], hcurve, (List.getElem?_eq_some_iff.1 hleaf).1, fun j m hm => ?_⟩
  have hc := hcont j m hm
  rw [hsp] at hc
  refine ⟨?_, hc⟩
  rw [hsp] at h3
  obtain ⟨b, hb1, hb2⟩ := h3.config_curve_of hwf hpm hv.conds (cfg := cfg) (List.mem_of_getElem? hcurve) hside m (List.mem_of_getElem? hm)
  rw [hc] at hb1
  rw [← hb2, ← Except.ok.inj hb1]
  simp

/-! ### a run -/

section concrete

local instance instTranscIntegerVectors : Transc ℚ := ⟨id, id⟩

/-- ConfigSpace's numbers of 0, …, 3 in the range 0..3: `(v + 0.49999) / 3.99998` -/
private def exNumber (v : ℚ) : ℚ := (v + 49999 / 100000) / (3 + 2 * (49999 / 100000))

private def exInts : ConfigSpace ℚ := [⟨"n", .integer 0 3 false⟩, ⟨"x", .float 0 1 false⟩]

/-- four samples with n = 0, 1, 2, 3; the surrogate is certain of 3 only -/
private def exIntDt (n : Nat) : Py (DT ℚ) :=
  dtInit exInts (fun rows => .ok (rows.map fun r => r.getD 0 0, rows.map fun r => if r.getD 0 0 < 7 / 10 then 2 else 1))
    (.name "x") ([0, 1, 2, 3].map fun v => [exNumber v, 0]) 2 n 1 none

/-- The numbers are those of `intNumber`. -/
example (v : ℚ) : ((exNumber v : ℚ) : ℝ) = intNumber (49999 / 100000) 0 3 false v := by
  simp only [exNumber, intNumber, Bool.false_eq_true, if_false]
  push_cast
  norm_num

/-- **C143** (counterexample: the full statement, without the hypothesis on misplaced values, is false) With ten thresholds, the tree separates
n = 0, 1, 2 from n = 3 at 7/11: the curve of the sample n = 2 is in the leaf of the left side (the second), but the
configuration n = 2 is in the other leaf and not in this one, because 7/11 is displayed as 21/11 < 2. -/
theorem C143_leaf_counterexample :
    (exIntDt 10).bind (fun p => (dtPartition p 1).2.map fun L => L.map fun m => m.conds.map fun c => (c.nval, c.lessEqual)) =
      .ok [[(.flt (7 / 11), some false)], [(.flt (7 / 11), some true)]] ∧
    (exIntDt 10).bind (fun p => (dtPartition p 1).2.map fun L => L.map fun m => m.x.map fun c => c.map fun r => r.getD 0 0) =
      .ok [[[exNumber 3, exNumber 3]], [[exNumber 0, exNumber 0], [exNumber 1, exNumber 1], [exNumber 2, exNumber 2]]] ∧
    (exIntDt 10).bind (fun p => (dtPartition p 1).2.bind fun L => L.mapM fun m => containsAll exInts m.conds ⟨[exNumber 2, 0], [("n", .num 2), ("x", .num 0)]⟩) =
      .ok [true, false] ∧
    unscaleFloat (7 / 11) exInts "n" = .ok (21 / 11) := by
  refine ⟨?_, ?_, ?_, ?_⟩ <;> decide +kernel

/-- With a single threshold there is no such sample. -/
example : (exIntDt 1).bind (fun p => (dtPartition p 1).2.bind fun L => L.mapM fun m => containsAll exInts m.conds ⟨[exNumber 2, 0], [("n", .num 2), ("x", .num 0)]⟩) =
      .ok [true, false] ∧
    (exIntDt 1).bind (fun p => (dtPartition p 1).2.map fun L => L.map fun m => m.x.map fun c => c.map fun r => r.getD 0 0) =
      .ok [[[exNumber 2, exNumber 2], [exNumber 3, exNumber 3]], [[exNumber 0, exNumber 0], [exNumber 1, exNumber 1]]] := by
  refine ⟨?_, ?_⟩ <;> decide +kernel

/-- `NoneMisplaced` holds of every configuration if 0.5 is the only threshold. -/
example {space : ConfigSpace ℝ} (hall : AllDeclared space) (hlin : ∀ hp ∈ space, ∀ l u g, hp.kind = .integer l u g → g = false) {h : ℝ} (hh : 0 ≤ h)
    (cfg : Config ℝ) : NoneMisplaced h space 1 cfg := by
  intro hp hm l u g v hk _ j hj1 hj2
  obtain rfl : j = 1 := by omega
  obtain rfl := hlin hp hm l u g hk
  obtain ⟨l', u', g', hD, hk'⟩ := allDeclared_kind hall hm
  rcases hk' with hk' | hk' <;> rw [hk] at hk' <;> cases hk'
  have ht : (threshold 1 1 : ℝ) = 1 / 2 := by norm_num [threshold]
  rw [ht]
  exact C143_middle hD hh (C01_unscale_is_interpolation hD (by norm_num) (by norm_num)) v

end concrete

end PyPDP
