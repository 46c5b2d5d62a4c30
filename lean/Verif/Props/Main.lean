/-
C102: the script examples/main.py.
-/
import Verif.Model.Main
import Verif.Spec.AdvancedPlots
import Verif.Props.BoGp
import Verif.Props.Workflow
import Verif.Props.PdpPlots
import Verif.Props.Formulas
import Verif.Props.Blackbox
import Verif.Props.Sampler

namespace PyPDP
open Spec

/-- `c` is a configuration of a space of float hyperparameters: a value for every one, in their order, the vector holds the fractions -/
def DrawnFrom (space : ConfigSpace ℝ) (c : Config ℝ) : Prop :=
  c.vector.length = space.length ∧ (∀ e ∈ c.vector, 0 ≤ e ∧ e ≤ 1) ∧ c.values.map Prod.fst = space.map Hp.name ∧ ConfigOf space c.vector c

/-- the space `[-5, 5]^d` -/
structure StSpace (d : Nat) (cs : ConfigSpace ℝ) : Prop where
  len : cs.length = d
  wf : cs.WF
  kind : ∀ hp ∈ cs, hp.kind = .float (-5) 5 false

theorem stSpace_ok {order : SpaceOrder ℝ} (hord : ∀ l, (order l).Perm l) (d : Nat) :
    ∃ cs, forNDimensions order (-5) 5 false styblinskiTangValue (d : ℝ) none none = .ok ⟨cs, styblinskiTangValue cs⟩ ∧ StSpace d cs ∧
      ∀ i, 1 ≤ i → i ≤ d → ∃ hp ∈ cs, hp.name = "x" ++ toString i := by
  obtain ⟨cs, h1, h2, h3, h4, h5⟩ := C10_scalar (K := ℝ) order hord d (-5) 5 false "x" (.inr ⟨by norm_num, by simp⟩)
  refine ⟨cs, by simp [forNDimensions, h1], ⟨h2, h3, fun hp hh => ?_⟩, fun i hi hj => ?_⟩
  · obtain ⟨i, -, -, -, -, h⟩ := h5 hp hh
    exact h (by norm_num)
  · obtain ⟨hp, hm, h, -⟩ := h4 i hi hj
    exact ⟨hp, hm, h⟩

theorem StSpace.float {d : Nat} {cs : ConfigSpace ℝ} (h : StSpace d cs) : FloatSpace cs :=
  fun hp hh => ⟨-5, 5, false, h.kind hp hh, by norm_num, by simp⟩

theorem StSpace.declares {d : Nat} {cs : ConfigSpace ℝ} (h : StSpace d cs) {hp : Hp ℝ} (hh : hp ∈ cs) : Declares cs hp.name (-5) 5 false :=
  ⟨h.wf, ⟨hp, hh, rfl, .inl (h.kind hp hh)⟩, by norm_num, by simp⟩

theorem DrawnFrom.get {d : Nat} {cs : ConfigSpace ℝ} (hs : StSpace d cs) {c : Config ℝ} (h : DrawnFrom cs c) (i : Fin cs.length) :
    ∃ x, -5 ≤ x ∧ x ≤ 5 ∧ c.get? (cs[i]).name = some (.num x) := by
  obtain ⟨h1, h2, -, h4⟩ := h
  have hi : i.1 < c.vector.length := by rw [h1]; exact i.2
  have hm : cs[i] ∈ cs := List.getElem_mem _
  have := h4 i cs[i] (-5) 5 false c.vector[i.1] (List.getElem?_eq_getElem i.2) (hs.kind _ hm) (List.getElem?_eq_getElem hi)
  refine ⟨_, ?_, ?_, this⟩
  · obtain ⟨a, b⟩ := h2 _ (List.getElem_mem hi)
    simp only [interpolate]; norm_num; linarith
  · obtain ⟨a, b⟩ := h2 _ (List.getElem_mem hi)
    simp only [interpolate]; norm_num; linarith

theorem DrawnFrom.within {d : Nat} {cs : ConfigSpace ℝ} (hs : StSpace d cs) {c : Config ℝ} (h : DrawnFrom cs c) : Within cs c := by
  intro hp hh
  obtain ⟨i, hi, rfl⟩ := List.getElem_of_mem hh
  obtain ⟨x, h1, h2, h3⟩ := h.get hs ⟨i, hi⟩
  exact ⟨x, -5, 5, false, hs.kind _ hh, h3, h1, h2⟩

theorem get?_of_mem {l : List (String × Val ℝ)} (hl : (l.map Prod.fst).Nodup) {n : String} {v : Val ℝ} (h : (n, v) ∈ l) (vec : List ℝ) :
    Config.get? ⟨vec, l⟩ n = some v := by
  have : l.find? (fun p => p.1 == n) = some (n, v) := by
    induction l with
    | nil => cases h
    | cons p ps ih =>
      rw [List.map_cons, List.nodup_cons] at hl
      rcases List.mem_cons.1 h with rfl | h
      · simp
      · have : p.1 ≠ n := fun e => hl.1 (List.mem_map.2 ⟨(n, v), h, e.symm⟩)
        rw [List.find?_cons_of_neg (by simpa using this)]
        exact ih hl.2 h
  simp [Config.get?, this]

/-- a drawn configuration can be evaluated -/
theorem call_drawn {d : Nat} {cs : ConfigSpace ℝ} (hs : StSpace d cs) (inv : Hp ℝ → Val ℝ → ℝ) {c : Config ℝ} (h : DrawnFrom cs c) :
    ∃ v, styblinskiTangValue cs c = .ok v ∧ (BlackboxFn.mk cs (styblinskiTangValue cs)).call inv c.values = .ok v := by
  choose x hx1 hx2 hx3 using h.get hs
  have hv := C97_styblinski_tang cs c x hx3
  refine ⟨_, hv, ?_⟩
  have hnd : (c.values.map Prod.fst).Nodup := by rw [h.2.2.1]; exact hs.wf
  have hmem : ∀ i : Fin cs.length, ((cs[i]).name, Val.num (x i)) ∈ c.values := by
    intro i
    have := hx3 i
    unfold Config.get? at this
    obtain ⟨p, hp, e⟩ := Option.map_eq_some_iff.1 this
    have h1 := List.mem_of_find?_eq_some hp
    have h2 := List.find?_some hp
    have h2 : p.1 = (cs[i]).name := by simpa using h2
    rw [← h2, ← e]; exact h1
  obtain ⟨config, h1, h2, h3⟩ := C11_legal inv (BlackboxFn.mk cs (styblinskiTangValue cs)) hnd (by
    refine ⟨fun p hp => ?_, fun hp hh => ?_⟩
    · have : p.1 ∈ cs.map Hp.name := h.2.2.1 ▸ List.mem_map_of_mem hp
      obtain ⟨hp, h1, h2⟩ := List.mem_map.1 this
      exact ⟨hp, h1, h2⟩
    · obtain ⟨i, hi, rfl⟩ := List.getElem_of_mem hh
      refine ⟨_, hmem ⟨i, hi⟩, ?_⟩
      have hk := hs.kind _ hh
      have a := hx1 ⟨i, hi⟩
      have b := hx2 ⟨i, hi⟩
      simp only [Hp.legal, hk]
      exact decide_eq_true ⟨a, b⟩)
  rw [h1]
  refine C97_styblinski_tang cs config x fun i => ?_
  exact get?_of_mem (by rw [h2]; exact hs.wf) ((h3 _ _).1 (hmem i)) config.vector

/-- the partial dependence of the `d`-dimensional function on one coordinate -/
noncomputable def stPartial (d : Nat) (x : ℝ) : ℝ := (x ^ 4 - 16 * x ^ 2 + 5 * x) / 2 - 25 / 6 * ((d : ℝ) - 1)

/-- the axes of the other coordinates -/
noncomputable def otherAxes (cs : ConfigSpace ℝ) (hp : Hp ℝ) : List Axis :=
  (cs.filter fun h => decide (h.name ≠ hp.name)).map fun h => ⟨h.name, -5, 5⟩

theorem filter_name {cs : List (Hp ℝ)} (hn : (cs.map Hp.name).Nodup) {hp : Hp ℝ} (hh : hp ∈ cs) :
    (cs.map Hp.name).filter (fun m => decide (m = hp.name)) = [hp.name] ∧ (cs.filter fun h => decide (h.name ≠ hp.name)).length + 1 = cs.length := by
  induction cs with
  | nil => cases hh
  | cons a as ih =>
    rw [List.map_cons, List.nodup_cons] at hn
    rcases List.mem_cons.1 hh with rfl | hh
    · have h1 : ∀ b ∈ as, b.name ≠ hp.name := fun b hb e => hn.1 (List.mem_map.2 ⟨b, hb, e⟩)
      constructor
      · rw [List.map_cons, List.filter_cons_of_pos (by simp), List.filter_eq_nil_iff.2]
        intro m hm
        obtain ⟨b, hb, rfl⟩ := List.mem_map.1 hm
        simpa using h1 b hb
      · rw [List.filter_cons_of_neg (by simp), List.filter_eq_self.2 (fun b hb => by simpa using h1 b hb), List.length_cons]
    · have : a.name ≠ hp.name := fun e => hn.1 (List.mem_map.2 ⟨hp, hh, e.symm⟩)
      obtain ⟨i1, i2⟩ := ih hn.2 hh
      constructor
      · rw [List.map_cons, List.filter_cons_of_neg (by simpa using this), i1]
      · rw [List.filter_cons_of_pos (by simpa using this), List.length_cons, List.length_cons, i2]

theorem average_eq {d : Nat} {cs : ConfigSpace ℝ} (hs : StSpace d cs) {hp : Hp ℝ} (hh : hp ∈ cs) {g : Assignment → ℝ}
    (hg : ∀ ρ, styblinskiTangValue cs (assignConfig cs ρ) = .ok (g ρ)) (ρ : Assignment) :
    average (otherAxes cs hp) g ρ = stPartial d (ρ hp.name) := by
  have : g = fun ρ => ((cs.map Hp.name).map fun m => stTerm (ρ m)).sum := by
    funext ρ
    have := hg ρ
    rw [st_value ρ fun _ h => h] at this
    rw [← Except.ok.inj this, List.map_map]; rfl
  have hn : (otherAxes cs hp).map Axis.name = (cs.filter fun h => decide (h.name ≠ hp.name)).map Hp.name := by
    rw [otherAxes, List.map_map]; rfl
  rw [this, average_additive hs.wf ρ (otherAxes cs hp) (by rw [hn]; exact hs.wf.sublist (List.filter_sublist.map _)) (by
    intro a ha
    obtain ⟨h, h1, rfl⟩ := List.mem_map.1 ha
    exact List.mem_map_of_mem (List.mem_of_mem_filter h1)) (by
    intro a ha
    obtain ⟨h, h1, rfl⟩ := List.mem_map.1 ha
    norm_num)]
  obtain ⟨f1, f2⟩ := filter_name hs.wf hh
  have e1 : ((cs.map Hp.name).filter fun m => decide (m ∉ (otherAxes cs hp).map Axis.name)) = [hp.name] := by
    rw [← f1]
    apply List.filter_congr
    intro m hm
    rw [hn, Bool.eq_iff_iff, decide_eq_true_iff, decide_eq_true_iff]
    obtain ⟨b, hb, rfl⟩ := List.mem_map.1 hm
    constructor
    · intro h
      by_contra hc
      exact h (List.mem_map_of_mem (List.mem_filter.2 ⟨hb, by simpa using hc⟩))
    · intro h hc
      obtain ⟨b', hb', e⟩ := List.mem_map.1 hc
      have := (List.mem_filter.1 hb').2
      simp only [decide_eq_true_eq] at this
      exact this (e.trans h)
  have e2 : ((otherAxes cs hp).map fun a => (styblinskiTangIntegral a.upper - styblinskiTangIntegral a.lower) / (a.upper - a.lower)).sum =
      -(25 / 6) * ((d : ℝ) - 1) := by
    rw [otherAxes, List.map_map]
    have : ∀ l : List (Hp ℝ), (l.map ((fun a : Axis => (styblinskiTangIntegral a.upper - styblinskiTangIntegral a.lower) / (a.upper - a.lower)) ∘
        fun h : Hp ℝ => (⟨h.name, -5, 5⟩ : Axis))).sum = -(25 / 6) * (l.length : ℝ) := by
      intro l
      induction l with
      | nil => simp
      | cons a as ih =>
        rw [List.map_cons, List.sum_cons, ih]
        simp only [Function.comp, styblinskiTangIntegral, List.length_cons]
        push_cast
        norm_num
        ring
    rw [this]
    have : ((cs.filter fun h => decide (h.name ≠ hp.name)).length : ℝ) = (d : ℝ) - 1 := by
      rw [← hs.len, ← f2]; push_cast; ring
    rw [this]
  rw [e1, e2]
  simp only [List.map_cons, List.map_nil, List.sum_cons, List.sum_nil, stTerm, stPartial]
  ring

/-- the fraction of grid point `p` of `P` -/
noncomputable def gridFraction (P p : Nat) : ℝ := if P = 1 then 0 else (p : ℝ) / ((P : ℝ) - 1)

theorem linspace_fraction {P p : Nat} (hp : p < P) : (linspace (0 : ℝ) 1 P)[p]? = some (gridFraction P p) ∧ 0 ≤ gridFraction P p ∧ gridFraction P p ≤ 1 := by
  have key : (linspace (0 : ℝ) 1 P)[p]? = some (gridFraction P p) := by
    unfold gridFraction
    split_ifs with h1
    · subst h1
      have : p = 0 := by omega
      subst this
      exact linspace_first 0 1 le_rfl
    · rw [linspace_getElem? 0 1 hp (by omega)]
      congr 1
      ring
  exact ⟨key, linspace_mem_range zero_le_one (List.mem_of_getElem? key)⟩

theorem replaced_at {cs : ConfigSpace ℝ} {hp : Hp ℝ} {f : Nat} (hf : cs[f]? = some hp) {t : ℝ} {r : List ℝ}
    (hr : r.length = cs.length) : (replaced cs [hp] [t] r)[f]? = some t := by
  have hl := (List.getElem?_eq_some_iff.1 hf).1
  unfold replaced
  rw [List.getElem?_zipWith, hf, List.getElem?_eq_getElem (by omega : f < r.length)]
  simp

/-- the likelihood of a region against the function on a box `box`: the curves are those of the sample rows `rows` -/
theorem region_nll_box {order : SpaceOrder ℝ} (hord : ∀ l, (order l).Perm l) (inv : Hp ℝ → Val ℝ → ℝ) {d : Nat} {cs : ConfigSpace ℝ}
    (hs : StSpace d cs) {hp : Hp ℝ} (hh : hp ∈ cs) {P : Nat} {n : Node ℝ} {mu sd : List ℝ → ℝ} {grid : List (List ℝ)}
    (hgrid : grid = (linspace 0 1 P).map fun t => [t]) (hn : RegionShape grid.length cs.length n) {rows : List (List ℝ)} (hne : rows ≠ [])
    (hrows : ∀ r ∈ rows, r.length = cs.length) (hsd : ∀ r, r.length = cs.length → 0 < sd r) (hc : curves n = rows.map (curveOf cs [hp] mu sd grid))
    {box : ConfigSpace ℝ} (hbox : box.WF) {hpT : Hp ℝ} (hT : hpT ∈ box) (hTn : hpT.name = hp.name) {logT : Bool} (hTk : hpT.kind = .float (-5) 5 logT)
    {axes : List Axis} (hane : axes ≠ []) (hax : List.Forall₂ (fun (h : Hp ℝ) (a : Axis) => h.name = a.name ∧
      ((∃ log, h.kind = .float a.lower a.upper log) ∨ ∃ log, h.kind = .integer a.lower a.upper log)) (box.filter fun h => decide (h.name ≠ hp.name)) axes)
    (hlen : ∀ a ∈ axes, a.lower < a.upper) :
    (∃ g : Assignment → ℝ, (∀ ρ, styblinskiTangValue box (assignConfig box ρ) = .ok (g ρ)) ∧
      negativeLogLikelihood inv cs [hp] n (trueStyblinskiTang order box) =
        .ok (gaussLoss P (fun p => averageOver rows fun r => mu (replaced cs [hp] [gridFraction P p] r))
          (fun p => averageOver rows fun r => sd (replaced cs [hp] [gridFraction P p] r) ^ 2) fun p => average axes g fun _ => -5 + 10 * gridFraction P p)) ∧
      ∀ p < P, 0 < averageOver rows fun r => sd (replaced cs [hp] [gridFraction P p] r) ^ 2 := by
  have hgl : grid.length = P := by rw [hgrid, List.length_map, linspace_length]
  rw [hgl] at hn
  obtain ⟨f, hfl⟩ := List.mem_iff_getElem?.1 hh
  have hcne : curves n ≠ [] := by rw [hc]; simpa using hne
  have hgp : ∀ p < P, grid[p]? = some [gridFraction P p] := by
    intro p hp'
    rw [hgrid, List.getElem?_map, (linspace_fraction hp').1]; rfl
  have hy : ∀ p < P, meanY p (curves n) = averageOver rows fun r => mu (replaced cs [hp] [gridFraction P p] r) := by
    intro p hp'
    rw [hc, meanY, averageOver, List.length_map, List.map_map]
    congr 2
    refine List.map_congr_left fun r _ => ?_
    simp [curveOf, List.getD_eq_getElem?_getD, hgp p hp']
  have hv : ∀ p < P, meanVar p (curves n) = averageOver rows fun r => sd (replaced cs [hp] [gridFraction P p] r) ^ 2 := by
    intro p hp'
    rw [hc, meanVar, averageOver, List.length_map, List.map_map]
    congr 2
    refine List.map_congr_left fun r _ => ?_
    simp [curveOf, List.getD_eq_getElem?_getD, hgp p hp']
  have hvpos : ∀ p < P, 0 < averageOver rows fun r => sd (replaced cs [hp] [gridFraction P p] r) ^ 2 := by
    intro p _
    unfold averageOver
    refine div_pos (List.sum_pos _ ?_ (by simpa using hne)) (by exact_mod_cast List.length_pos_iff.2 hne)
    intro v hv'
    obtain ⟨r, hr, rfl⟩ := List.mem_map.1 hv'
    exact pow_pos (hsd _ (by rw [replaced_length (hrows r hr)])) 2
  have hx : ∀ p < P, at3 n.x 0 p f = some (gridFraction P p) ∧ 0 ≤ gridFraction P p ∧ gridFraction P p ≤ 1 := by
    intro p hp'
    refine ⟨?_, (linspace_fraction hp').2⟩
    obtain ⟨r, rest, hr⟩ := List.exists_cons_of_ne_nil hne
    have hx0 : n.x[0]? = some (curveOf cs [hp] mu sd grid r).1 := by
      have h0 : (curves n)[0]? = some (curveOf cs [hp] mu sd grid r) := by rw [hc, hr]; rfl
      unfold curves at h0
      rw [List.getElem?_zip_eq_some] at h0
      exact h0.1
    rw [at3, hx0]
    simp only [curveOf, Option.bind_some, List.getElem?_map, hgp p hp', Option.map_some]
    exact replaced_at hfl (hrows r (by rw [hr]; simp))
  obtain ⟨g, hg, hnll⟩ := C63_styblinski_tang_partial (inv := inv) (t := gridFraction P) hord hn hcne (fun p hp' => by rw [hv p hp']; exact hvpos p hp') (hs.declares hh)
    (f := f) ⟨hp, hfl, rfl⟩ hx hbox hT hTn hTk hane hax hlen
  refine ⟨⟨g, hg, ?_⟩, hvpos⟩
  rw [hnll]
  congr 1
  unfold gaussLoss
  congr 2
  refine Finset.sum_congr rfl fun p hp' => ?_
  have hp' := Finset.mem_range.1 hp'
  dsimp only
  have e : interpolate (-5) 5 false (gridFraction P p) = -5 + 10 * gridFraction P p := by
    simp only [interpolate]
    norm_num
    ring
  rw [hy p hp', hv p hp', e]

/-- the likelihood of a region of the script: the curves are those of the sample rows `rows` -/
theorem region_nll {order : SpaceOrder ℝ} (hord : ∀ l, (order l).Perm l) (inv : Hp ℝ → Val ℝ → ℝ) {d : Nat} (hd : 2 ≤ d) {cs : ConfigSpace ℝ}
    (hs : StSpace d cs) {hp : Hp ℝ} (hh : hp ∈ cs) {P : Nat} {n : Node ℝ} {mu sd : List ℝ → ℝ} {grid : List (List ℝ)}
    (hgrid : grid = (linspace 0 1 P).map fun t => [t]) (hn : RegionShape grid.length cs.length n) {rows : List (List ℝ)} (hne : rows ≠ [])
    (hrows : ∀ r ∈ rows, r.length = cs.length) (hsd : ∀ r, r.length = cs.length → 0 < sd r) (hc : curves n = rows.map (curveOf cs [hp] mu sd grid)) :
    negativeLogLikelihood inv cs [hp] n (trueStyblinskiTang order cs) =
      .ok (gaussLoss P (fun p => averageOver rows fun r => mu (replaced cs [hp] [gridFraction P p] r))
        (fun p => averageOver rows fun r => sd (replaced cs [hp] [gridFraction P p] r) ^ 2) fun p => stPartial d (-5 + 10 * gridFraction P p)) ∧
      ∀ p < P, 0 < averageOver rows fun r => sd (replaced cs [hp] [gridFraction P p] r) ^ 2 := by
  have hsel : (cs.filter fun h => decide (h.name ≠ hp.name)) ≠ [] := by
    intro h0
    have := (filter_name hs.wf hh).2
    rw [h0, hs.len] at this
    simp at this
    omega
  obtain ⟨⟨g, hg, hnll⟩, hpos⟩ := region_nll_box hord inv hs hh hgrid hn hne hrows hsd hc hs.wf hh rfl (hs.kind hp hh)
    (axes := otherAxes cs hp) (by unfold otherAxes; simpa using hsel) (by
      unfold otherAxes
      rw [List.forall₂_map_right_iff, List.forall₂_same]
      intro h hm
      exact ⟨rfl, .inl ⟨false, hs.kind h (List.mem_of_mem_filter hm)⟩⟩) (by
      intro a ha
      obtain ⟨h, -, rfl⟩ := List.mem_map.1 ha
      norm_num)
  refine ⟨?_, hpos⟩
  rw [hnll]
  congr 1
  unfold gaussLoss
  congr 2
  refine Finset.sum_congr rfl fun p _ => ?_
  dsimp only
  rw [average_eq hs hh hg]

/-- what is assumed about randomness, files and libraries: everything drawn or read from the cache is a configuration of the space, cached
values are the function's, `ICE` gets at least two samples, the kernels found by the optimiser are
covariance functions of variance 1 (as the default kernel with any length scale) -/
structure MainInput.Good {S : Type} (i : MainInput S) (cs : ConfigSpace ℝ) : Prop where
  order : ∀ l, (i.order l).Perm l
  kernel : ∀ Z t, UnitCovariance cs.length (i.choose Z t)
  drawn : ∀ s n, ∀ c ∈ (i.drawer.draw s n).1, DrawnFrom cs c
  candidates : ∀ s n, ∀ c ∈ (i.acqDrawer.draw s n).1, DrawnFrom cs c
  cache : ∀ p ∈ loadCache i.ofVec i.file, DrawnFrom cs p.1 ∧ styblinskiTangValue cs p.1 = .ok p.2
  ice : ∃ l, i.iceDraws = .many l ∧ l ≠ [] ∧ ∀ c ∈ l, DrawnFrom cs c

/-- the sampler's part of the script: `n` evaluations, the first `initial` of them random -/
theorem main_sampler {S : Type} {i : MainInput S} {d : Nat} (hd : 1 ≤ d) {cs : ConfigSpace ℝ} (hs : StSpace d cs) (hi : i.Good cs) (kind : AcqKind)
    {nCandidates : Int} (hn : 2 ≤ nCandidates) {initial n : Int} (hini : 1 ≤ initial) (hn1 : 1 ≤ n) :
    ∃ env s, gpSampler i.choose kind true initial (cs.map Hp.name) i.drawer i.acqDrawer nCandidates = .ok (env, .new) ∧
      boSample (callObjective i.inv ⟨cs, styblinskiTangValue cs⟩) env (samplerInit i.ofVec i.file
        { rng := i.rng, model := .new, eta := none, fittedHash := none, nextObj := 0, lastFit := none, fits := 0 }) n = (s, none) ∧
      s.configs.length = n.toNat ∧ (∀ c ∈ s.configs, DrawnFrom cs c) ∧ s.ys.length = s.configs.length ∧
      ∀ (j : Nat) c y, s.configs[j]? = some c → s.ys[j]? = some y → styblinskiTangValue cs c = .ok y := by
  have hk : ∀ Z t, Covariance d (i.choose Z t) := fun Z t => hs.len ▸ (hi.kernel Z t).1
  obtain ⟨o, ho⟩ : ∃ o, o = callObjective i.inv ⟨cs, styblinskiTangValue cs⟩ := ⟨_, rfl⟩
  have hval : ∀ c, DrawnFrom cs c → styblinskiTangValue cs c = .ok (o.value c) ∧ ∀ t, o.raises t c = none := by
    intro c hc
    obtain ⟨v, h1, h2⟩ := call_drawn hs i.inv hc
    rw [ho]
    constructor
    · rw [h1]; simp only [callObjective, h2]
    · intro t; simp only [callObjective, h2]
  have henv := gpSampler_ok i.choose (kind := kind) (minimize := true) (.inl rfl) initial (cs.map Hp.name) i.drawer i.acqDrawer nCandidates
  obtain ⟨env, he⟩ : ∃ env : BOEnv (Config ℝ) ℝ GpSurrogate S, env =
    { initialPoints := initial, minimize := true, names := cs.map Hp.name, drawer := i.drawer, acqDrawer := i.acqDrawer, nCandidates, fit := gpFitStep i.choose, acq := gpAcq kind true } := ⟨_, rfl⟩
  rw [← he] at henv
  have hruns : Runs (DrawnFrom cs) o env := by
    rw [he]
    refine ⟨fun t c hc => (hval c hc).2 t, hi.drawn, hi.candidates, fun m l ys hne hg hl => ?_, by dsimp only; omega⟩
    obtain ⟨m', h, -⟩ := gpFitStep_ok hk (configs_data hd hne (fun c hc => (hg c hc).1.trans hs.len) hl) m
    exact ⟨m', h⟩
  obtain ⟨start, hstart⟩ : ∃ st : BOState (Config ℝ) ℝ GpSurrogate S, st = samplerInit i.ofVec i.file
        { rng := i.rng, model := .new, eta := none, fittedHash := none, nextObj := 0, lastFit := none, fits := 0 } := ⟨_, rfl⟩
  have hg : Good (DrawnFrom cs) start := by rw [hstart]; exact ⟨by simp [samplerInit], rfl⟩
  have hc : ∀ p ∈ start.cache, DrawnFrom cs p.1 := by rw [hstart]; exact fun p hp => (hi.cache p hp).1
  obtain ⟨h1, h2, -, -⟩ := boSample_runs hruns (by rw [he]; exact hn) (n := n) (.inl (by omega)) hg hc
  obtain ⟨s, hs'⟩ : ∃ s, boSample o env start n = (s, none) := ⟨_, Prod.ext rfl h1⟩
  rw [hs'] at h2
  classical
  obtain ⟨new, n1, n2, -, -⟩ := C19_sample_appends (o := o) (.bo env) hs'
  have hal := (randomOrBO_aligned (o := o) (.bo env) start n (by rw [hstart]; rfl) (by
    rw [hstart]
    intro p hp
    obtain ⟨a, b⟩ := hi.cache p hp
    rw [(hval _ a).1] at b
    exact (Except.ok.inj b).symm)).1
  rw [hs'] at hal
  refine ⟨env, s, henv, by rw [← hstart, ← ho, hs'], ?_, h2.configs, h2.len, fun j c y hj hy => ?_⟩
  · rw [n2, hstart]
    simp only [samplerInit, List.nil_append, List.length_map, n1]
  · unfold Aligned at hal
    dsimp only at hal
    rw [hal, List.getElem?_map, hj] at hy
    rw [(hval c (h2.configs c (List.mem_of_getElem? hj))).1]
    exact congrArg _ (Option.some.inj hy)

/-- every acquired point is acquired from the points before it -/
theorem acquiredSeq_at {C K M : Type} [LT K] {f : C → K} {env : BOEnv C K M S} {cs acq : List C} (h : AcquiredSeq f env cs (cs.map f) acq) {j : Nat} {c : C}
    (hj : cs.length ≤ j) (hc : (cs ++ acq)[j]? = some c) : IsAcquired env ((cs ++ acq).take j) (((cs ++ acq).take j).map f) c := by
  induction acq generalizing cs j with
  | nil =>
    rw [List.append_nil, List.getElem?_eq_none hj] at hc
    cases hc
  | cons a acq ih =>
    rcases hj.eq_or_lt with rfl | hlt
    · rw [List.getElem?_append_right le_rfl, Nat.sub_self, List.getElem?_cons_zero, Option.some.injEq] at hc
      subst hc
      rw [List.take_left]
      exact h.1
    · have h2 := h.2
      rw [← List.map_singleton, ← List.map_append] at h2
      have := ih h2 (j := j) (by simpa using hlt) (by simpa using hc)
      simpa using this

/-- What the optimisation of a script does (without a cache file): the first `initial` of the points are what was drawn, and every later one maximises the acquisition function among
the `nCandidates` candidates drawn for it, computed from a Gaussian process that is fitted to exactly the points and values before, and the smallest of these
values. -/
def OptimisedBy (d : Nat) (i : MainInput S) (kind : AcqKind) (initial nCandidates : Nat) (configs : List (Config ℝ)) (ys : List ℝ) : Prop :=
  configs.take initial = (i.drawer.draw i.rng (min configs.length initial)).1 ∧
  ∀ (j : Nat) c, initial ≤ j → configs[j]? = some c → ∃ (gp : GpSurrogate) (mu sd : List ℝ → ℝ) (eta : ℝ) (r : S),
    GpSurrogate.new.fit i.choose ((configs.take j).map Config.vector) (ys.take j) = (gp, .ok ()) ∧ RowWise d gp.predict mu sd ∧ (∀ v, v.length = d → 0 < sd v) ∧
    eta ∈ ys.take j ∧ (∀ y ∈ ys.take j, eta ≤ y) ∧
    FirstMax (fun q => acqMeaning true eta (mu q.vector) (sd q.vector) kind) (i.acqDrawer.draw r nCandidates).1 c

theorem optimised_of {i : MainInput S} {d : Nat} (hd : 1 ≤ d) {names : List String} (hk : ∀ Z t, UnitCovariance d (i.choose Z t))
    (hcand : ∀ r k, ∀ c ∈ (i.acqDrawer.draw r k).1, c.vector.length = d) {kind : AcqKind}
    {nCandidates : Int} {initial : Nat} {env : BOEnv (Config ℝ) ℝ GpSurrogate S} {m : GpSurrogate} {o : Objective (Config ℝ) ℝ}
    (henv : gpSampler i.choose kind true initial names i.drawer i.acqDrawer nCandidates = .ok (env, m)) {configs acq init : List (Config ℝ)} {ys : List ℝ}
    (hinit : init = (i.drawer.draw i.rng (min configs.length initial)).1) (h1 : configs = init ++ acq) (h2 : ys = configs.map o.value)
    (h4 : AcquiredSeq o.value env init (init.map o.value) acq) (hdr : ∀ c ∈ configs, c.vector.length = d) :
    OptimisedBy d i kind initial nCandidates.toNat configs ys := by
  have hil : init.length = min configs.length initial := by rw [hinit]; exact i.drawer.draw_length _ _
  have hal := congrArg List.length h1
  rw [List.length_append] at hal
  refine ⟨?_, fun j c hj hc => ?_⟩
  · rw [← hinit]
    by_cases hle : initial ≤ configs.length
    · rw [h1, List.take_left' (by omega)]
    · have : acq = [] := List.length_eq_zero_iff.1 (by omega)
      rw [List.take_of_length_le (by omega), h1, this, List.append_nil]
  · have hj' : init.length ≤ j := by omega
    have ha := acquiredSeq_at h4 hj' (by rw [← h1]; exact hc)
    rw [← h1, List.map_take, ← h2] at ha
    have hw : ∀ c ∈ configs.take j, c.vector.length = d := fun c hc => hdr c (List.mem_of_mem_take hc)
    have hl : (ys.take j).length = (configs.take j).length := by rw [List.length_take, List.length_take, h2, List.length_map]
    obtain ⟨gp, mu, sd, eta, r, g1, g2, g3, g4, g5, g6⟩ := C101_acquired_unit hk hd hcand henv hw hl ha
    exact ⟨gp, mu, sd, eta, r, g1, g2, g3, g4, fun y hy => by simpa using g5 y hy, g6⟩

theorem sampler_points {i : MainInput S} {d : Nat} (hd : 1 ≤ d) {names : List String} (hk : ∀ Z t, UnitCovariance d (i.choose Z t))
    (hcand : ∀ r k, ∀ c ∈ (i.acqDrawer.draw r k).1, c.vector.length = d) {kind : AcqKind}
    {nCandidates : Int} {initial n : Nat} {env : BOEnv (Config ℝ) ℝ GpSurrogate S} {m : GpSurrogate} {s : BOState (Config ℝ) ℝ GpSurrogate S} {o : Objective (Config ℝ) ℝ}
    (henv : gpSampler i.choose kind true initial names i.drawer i.acqDrawer nCandidates = .ok (env, m))
    (h : boSample o env (samplerInit i.ofVec i.file { rng := i.rng, model := m, eta := none, fittedHash := none, nextObj := 0, lastFit := none, fits := 0 }) n = (s, none))
    (hcache : loadCache i.ofVec i.file = []) (hlen : s.configs.length = n) (hdr : ∀ c ∈ s.configs, c.vector.length = d) :
    OptimisedBy d i kind initial nCandidates.toNat s.configs s.ys := by
  have henv' := henv
  rw [gpSampler_ok i.choose (.inl rfl)] at henv'
  obtain ⟨he, rfl⟩ := Prod.mk.inj (Except.ok.inj henv')
  have hst : (samplerInit i.ofVec i.file { rng := i.rng, model := .new, eta := none, fittedHash := none, nextObj := 0, lastFit := none, fits := 0 } :
      BOState (Config ℝ) ℝ GpSurrogate S) = freshBO i.rng .new := by
    simp [samplerInit, freshBO, hcache]
  rw [hst] at h
  obtain ⟨acq, h1, h2, h3, h4⟩ := C29_initial_then_acquired o env (by rw [← he]; exact Int.natCast_nonneg _) i.rng .new n h
  have hd1 : env.drawer = i.drawer := by rw [← he]
  have hd2 : env.initialPoints = initial := by rw [← he]
  rw [hd1, hd2, Int.toNat_natCast] at h1 h4
  exact optimised_of hd hk hcand henv (by rw [hlen]) h1 h2 h4 hdr

/-- the same for two calls, the first of which takes all initial points -/
theorem sampler_points_twice {i : MainInput S} {d : Nat} (hd : 1 ≤ d) {names : List String} (hk : ∀ Z t, UnitCovariance d (i.choose Z t))
    (hcand : ∀ r k, ∀ c ∈ (i.acqDrawer.draw r k).1, c.vector.length = d) {kind : AcqKind}
    {nCandidates : Int} {initial n k : Nat} (hin : initial ≤ n) {env : BOEnv (Config ℝ) ℝ GpSurrogate S} {m : GpSurrogate} {s1 s : BOState (Config ℝ) ℝ GpSurrogate S}
    {o : Objective (Config ℝ) ℝ} (henv : gpSampler i.choose kind true initial names i.drawer i.acqDrawer nCandidates = .ok (env, m))
    (h : boSample o env (samplerInit i.ofVec i.file { rng := i.rng, model := m, eta := none, fittedHash := none, nextObj := 0, lastFit := none, fits := 0 }) n = (s1, none))
    (h' : boSample o env s1 k = (s, none))
    (hcache : loadCache i.ofVec i.file = []) (hys : s.ys = s.configs.map o.value) (hdr : ∀ c ∈ s.configs, c.vector.length = d) :
    OptimisedBy d i kind initial nCandidates.toNat s.configs s.ys := by
  have henv' := henv
  rw [gpSampler_ok i.choose (.inl rfl)] at henv'
  obtain ⟨he, rfl⟩ := Prod.mk.inj (Except.ok.inj henv')
  have hst : (samplerInit i.ofVec i.file { rng := i.rng, model := .new, eta := none, fittedHash := none, nextObj := 0, lastFit := none, fits := 0 } :
      BOState (Config ℝ) ℝ GpSurrogate S) = freshBO i.rng .new := by
    simp [samplerInit, freshBO, hcache]
  rw [hst] at h
  have hd1 : env.drawer = i.drawer := by rw [← he]
  have hd2 : env.initialPoints = initial := by rw [← he]
  obtain ⟨acq, h1, h3, h4⟩ := C77_split_partial o env (by rw [hd2]; exact Int.natCast_nonneg _) i.rng .new n k (by rw [hd2]; exact_mod_cast hin) h h'
  rw [hd1, hd2, Int.toNat_natCast] at h1 h4
  rw [hd2, Int.toNat_natCast] at h3
  have hlen : initial ≤ s.configs.length := by rw [h1, List.length_append, i.drawer.draw_length]; omega
  exact optimised_of hd hk hcand henv (by rw [Nat.min_eq_right hlen]) h1 hys h4 hdr

theorem main_sampler_points {i : MainInput S} {d : Nat} (hd : 1 ≤ d) {cs : ConfigSpace ℝ} (hs : StSpace d cs) (hi : i.Good cs) {kind : AcqKind}
    {nCandidates : Int} {initial n : Nat} {env : BOEnv (Config ℝ) ℝ GpSurrogate S} {m : GpSurrogate} {s : BOState (Config ℝ) ℝ GpSurrogate S} {o : Objective (Config ℝ) ℝ}
    (henv : gpSampler i.choose kind true initial (cs.map Hp.name) i.drawer i.acqDrawer nCandidates = .ok (env, m))
    (h : boSample o env (samplerInit i.ofVec i.file { rng := i.rng, model := m, eta := none, fittedHash := none, nextObj := 0, lastFit := none, fits := 0 }) n = (s, none))
    (hcache : loadCache i.ofVec i.file = []) (hlen : s.configs.length = n) (hdr : ∀ c ∈ s.configs, DrawnFrom cs c) :
    OptimisedBy d i kind initial nCandidates.toNat s.configs s.ys :=
  sampler_points hd (fun Z t => hs.len ▸ hi.kernel Z t) (fun r k c hc => (hi.candidates r k c hc).1.trans hs.len) henv h hcache hlen
    fun c hc => (hdr c hc).1.trans hs.len

theorem main_sampler_optimised {i : MainInput S} {d : Nat} (hd : 1 ≤ d) {cs : ConfigSpace ℝ} (hs : StSpace d cs) (hi : i.Good cs) {kind : AcqKind}
    {nCandidates : Int} {initial : Nat} {initial' n : Int} (e1 : initial' = initial) (hn : 0 ≤ n) {env : BOEnv (Config ℝ) ℝ GpSurrogate S} {m : GpSurrogate}
    {s : BOState (Config ℝ) ℝ GpSurrogate S} {o : Objective (Config ℝ) ℝ}
    (henv : gpSampler i.choose kind true initial' (cs.map Hp.name) i.drawer i.acqDrawer nCandidates = .ok (env, m))
    (h : boSample o env (samplerInit i.ofVec i.file { rng := i.rng, model := m, eta := none, fittedHash := none, nextObj := 0, lastFit := none, fits := 0 }) n = (s, none))
    (hlen : s.configs.length = n.toNat) (hdr : ∀ c ∈ s.configs, DrawnFrom cs c) (hcache : loadCache i.ofVec i.file = []) :
    OptimisedBy d i kind initial nCandidates.toNat s.configs s.ys := by
  obtain ⟨k, rfl⟩ := Int.eq_ofNat_of_zero_le hn
  subst e1
  exact main_sampler_points hd hs hi henv h hcache (by simpa using hlen) hdr

theorem points_optimised {i : MainInput S} {order : SpaceOrder ℝ} (hord : ∀ l, (order l).Perm l) {d : Nat} (hd : 1 ≤ d) {f : BlackboxFn ℝ}
    (hf : forNDimensions order (-5) 5 false styblinskiTangValue (d : ℝ) none none = .ok f) (hi : i.Good f.cs) (hcache : loadCache i.ofVec i.file = [])
    {kind : AcqKind} {nCandidates : Int} (hn : 2 ≤ nCandidates) {initial n : Nat} (hini : 1 ≤ initial) (hn1 : 1 ≤ n) {initial' n' : Int} (e1 : initial' = initial) (e2 : n' = n)
    {env : BOEnv (Config ℝ) ℝ GpSurrogate S} {m : GpSurrogate}
    (henv : gpSampler i.choose kind true initial' (f.cs.map Hp.name) i.drawer i.acqDrawer nCandidates = .ok (env, m)) {s : BOState (Config ℝ) ℝ GpSurrogate S}
    (h : boSample (callObjective i.inv f) env (samplerInit i.ofVec i.file
      { rng := i.rng, model := m, eta := none, fittedHash := none, nextObj := 0, lastFit := none, fits := 0 }) n' = (s, none)) :
    OptimisedBy d i kind initial nCandidates.toNat s.configs s.ys := by
  subst e1 e2
  obtain ⟨cs, h1, hs, -⟩ := stSpace_ok hord d
  rw [hf] at h1
  have hfe : f = ⟨cs, styblinskiTangValue cs⟩ := Except.ok.inj h1
  subst hfe
  dsimp only at hi henv h
  obtain ⟨env', s', a1, a2, a3, a4, -⟩ := main_sampler hd hs hi kind hn (initial := initial) (n := n) (by omega) (by omega)
  have henv' := henv
  rw [a1] at henv
  obtain ⟨rfl, rfl⟩ := Prod.mk.inj (Except.ok.inj henv)
  rw [a2] at h
  obtain rfl := (Prod.mk.inj h).1
  exact main_sampler_points hd hs hi henv' a2 hcache (by simpa using a3) a4

theorem incumbent_best {X : Type} {s : SamplerState (Config ℝ) ℝ X} (hl : s.ys.length = s.configs.length) (hne : s.configs ≠ []) :
    ∃ (j : Nat) (c : Config ℝ) (v : ℝ), incumbent true s = .ok (some c, some v) ∧ s.configs[j]? = some c ∧ s.ys[j]? = some v ∧ ∀ y ∈ s.ys, v ≤ y := by
  have hy : s.ys ≠ [] := by
    intro h
    rw [h] at hl
    exact hne (List.length_eq_zero_iff.1 hl.symm)
  obtain ⟨j, c, v, h1, h2, h3, h4, -⟩ := (C21_incumbent true s hl.symm).2 hy
  exact ⟨j, c, v, h1, h2, h3, fun y hm => not_lt.1 (by simpa [Better] using h4 y hm)⟩

/-- the vector of a drawn configuration determines it -/
theorem DrawnFrom.unique {d : Nat} {cs : ConfigSpace ℝ} (hs : StSpace d cs) {a b : Config ℝ} (ha : DrawnFrom cs a) (hb : DrawnFrom cs b)
    (h : a.vector = b.vector) : a = b := by
  have key : ∀ c : Config ℝ, DrawnFrom cs c → ∀ (i : Nat) (hi : i < c.values.length) (hi' : i < List.length cs) (hv : i < c.vector.length),
      c.values[i] = ((cs[i]).name, .num (interpolate (-5) 5 false c.vector[i])) := by
    intro c hc i hi hi' hv
    have h1 := hc.2.2.2 i cs[i] (-5) 5 false _ (List.getElem?_eq_getElem hi') (hs.kind _ (List.getElem_mem hi')) (List.getElem?_eq_getElem hv)
    have h2 : c.values[i].1 = (cs[i]).name := by
      have := congrArg (fun l => l[i]?) hc.2.2.1
      simp only [List.getElem?_map, List.getElem?_eq_getElem hi, List.getElem?_eq_getElem hi', Option.map_some] at this
      exact Option.some.inj this
    have h3 := get?_of_mem (l := c.values) (n := c.values[i].1) (v := c.values[i].2) (by rw [hc.2.2.1]; exact hs.wf) (List.getElem_mem hi) c.vector
    have h4 : c.get? (cs[i]).name = some c.values[i].2 := by rw [← h2]; exact h3
    rw [h1] at h4
    exact Prod.ext h2 (Option.some.inj h4).symm
  have la : a.values.length = List.length cs := by have := congrArg List.length ha.2.2.1; simpa using this
  have lb : b.values.length = List.length cs := by have := congrArg List.length hb.2.2.1; simpa using this
  have hv : a.values = b.values := by
    refine List.ext_getElem (by omega) fun i h1 h2 => ?_
    rw [key a ha i h1 (by omega) (by rw [ha.1]; omega), key b hb i h2 (by omega) (by rw [hb.1]; omega)]
    simp only [h]
  cases a; cases b
  simp only at h hv
  rw [h, hv]

/-- setting one hyperparameter in a sample -/
theorem replaced_one {cs : ConfigSpace ℝ} (hwf : cs.WF) {p : Hp ℝ} {f : Nat} (hf : cs[f]? = some p) {r : List ℝ} (hr : r.length = List.length cs) (a : ℝ) :
    replaced cs [p] [a] r = r.set f a := by
  have hname : ∀ (i j : Nat) h h', cs[i]? = some h → cs[j]? = some h' → h.name = h'.name → i = j := by
    intro i j h h' hi hj e
    have h1 : (cs.map Hp.name)[i]? = some h.name := by rw [List.getElem?_map, hi]; rfl
    have h2 : (cs.map Hp.name)[j]? = some h.name := by rw [List.getElem?_map, hj, e]; rfl
    exact (List.getElem?_inj (List.getElem?_eq_some_iff.1 h1).1 hwf).1 (h1.trans h2.symm)
  unfold replaced
  refine List.ext_getElem (by simp [hr]) fun i h1 h2 => ?_
  have hi : i < List.length cs := by simpa [hr] using h1
  rw [List.getElem_zipWith, List.getElem_set]
  by_cases e : f = i
  · subst e
    have : p.name = (cs[f]).name := by
      rw [List.getElem?_eq_getElem hi] at hf
      rw [Option.some.inj hf]
    simp [List.findIdx?_cons, this]
  · have hp : ¬ p.name = (cs[i]).name := fun x => e (hname f i p _ hf (List.getElem?_eq_getElem hi) x)
    simp [List.findIdx?_cons, hp, e]

/-- the vectors of those drawn samples that a region contains -/
noncomputable def samplesIn (cs : ConfigSpace ℝ) (conds : List (Cond ℝ)) (draws : List (Config ℝ)) : List (List ℝ) :=
  (draws.filter fun c => decide (containsAll cs conds c = .ok true)).map Config.vector

theorem samplesIn_eq {d : Nat} {cs : ConfigSpace ℝ} (hs : StSpace d cs) {draws : List (Config ℝ)} (hd : ∀ c ∈ draws, DrawnFrom cs c) {config : List ℝ → Config ℝ}
    (hc : ∀ r ∈ draws.map Config.vector, config r ∈ draws ∧ (config r).vector = r) (conds : List (Cond ℝ)) :
    (draws.map Config.vector).filter (fun r => decide (containsAll cs conds (config r) = .ok true)) = samplesIn cs conds draws := by
  unfold samplesIn
  rw [List.filter_map]
  congr 1
  refine List.filter_congr fun c hm => ?_
  obtain ⟨c1, c2⟩ := hc c.vector (List.mem_map_of_mem hm)
  simp only [Function.comp, (hd _ c1).unique hs (hd c hm) c2]

theorem eq_pdpMeans {cs : ConfigSpace ℝ} (hwf : cs.WF) {hp : Hp ℝ} {e : Nat} (he : cs[e]? = some hp) {P : Nat} {grid : List (List ℝ)}
    (hgrid : grid = (linspace 0 1 P).map fun t => [t]) {rows : List (List ℝ)} (hrows : ∀ r ∈ rows, r.length = List.length cs) {φ : List ℝ → ℝ} {l : List ℝ} (hl : l.length = P)
    (h : ∀ (p : Nat) t, grid[p]? = some t → l[p]? = some (averageOver rows fun r => φ (replaced cs [hp] t r))) : l = pdpMeans rows φ e P := by
  refine List.ext_getElem? fun p => ?_
  unfold pdpMeans
  by_cases hp' : p < P
  · rw [h p [gridFraction P p] (by rw [hgrid, List.getElem?_map, (linspace_fraction hp').1]; rfl), List.getElem?_map, List.getElem?_range hp', Option.map_some]
    congr 1
    unfold averageOver meanOver
    congr 2
    exact List.map_congr_left fun r hr => by rw [replaced_one hwf he (hrows r hr)]; rfl
  · rw [List.getElem?_eq_none (by omega), List.getElem?_eq_none (by simp; omega)]

/-- the mean of the standard deviations over the grid and the rows -/
theorem mean_pdpMeans {cs : ConfigSpace ℝ} (hwf : cs.WF) {hp : Hp ℝ} {e : Nat} (he : cs[e]? = some hp) {P : Nat} {grid : List (List ℝ)}
    (hgrid : grid = (linspace 0 1 P).map fun t => [t]) {rows : List (List ℝ)} (hrows : ∀ r ∈ rows, r.length = List.length cs) {sd : List ℝ → ℝ}
    (hsd : ∀ r, r.length = List.length cs → 0 < sd r) :
    (grid.map fun t => averageOver rows fun r => abs (sd (replaced cs [hp] t r))).sum / grid.length = (pdpMeans rows sd e P).sum / P := by
  have hl : grid.length = P := by rw [hgrid, List.length_map, linspace_length]
  rw [eq_pdpMeans (φ := sd) (l := grid.map fun t => averageOver rows fun r => abs (sd (replaced cs [hp] t r))) hwf he hgrid hrows (by rw [List.length_map, hl]) fun p t ht => ?_, hl]
  rw [List.getElem?_map, ht, Option.map_some]
  congr 1
  unfold averageOver
  congr 2
  exact List.map_congr_left fun r hr => abs_of_pos (hsd _ (by rw [replaced_length (hrows r hr)]))

/-- a run of the script up to line 56, for `d ≥ 1`; what is left are the likelihoods -/
theorem main_until {S : Type} {i : MainInput S} {d : Nat} (hd : 1 ≤ d) {f : BlackboxFn ℝ}
    (hf : forNDimensions i.order (-5) 5 false styblinskiTangValue (d : ℝ) none none = .ok f) (hi : i.Good f.cs) {k : Nat} (hk1 : 1 ≤ k) (hk2 : k ≤ d)
    (kind : AcqKind) {nCandidates : Int} (hn : 2 ≤ nCandidates) {perAxis : Nat} (hg : 1 ≤ perAxis) (numSplits : Nat) {minPoints : Nat}
    (hm : 1 ≤ minPoints) {depth : Int} (hdep : 0 < depth) :
    ∃ (hp : Hp ℝ) (s : BOState (Config ℝ) ℝ GpSurrogate S) (gp : GpSurrogate) (best : Config ℝ) (curve part : IceCurve ℝ) (root region : Node ℝ) (box : ConfigSpace ℝ)
      (a b : ℝ) (samples inside : List (List ℝ)) (mu sd : List ℝ → ℝ) (grid : List (List ℝ)),
      mainScript i d ("x" ++ toString k) kind nCandidates perAxis numSplits minPoints depth = (do
        let nllBase ← negativeLogLikelihood i.inv f.cs [hp] root (trueStyblinskiTang i.order f.cs)
        let nllLeaf ← negativeLogLikelihood i.inv f.cs [hp] region (trueStyblinskiTang i.order f.cs)
        return ⟨f.cs, s, gp, best, curve, root, region, box, nllBase, nllLeaf, a, b⟩) ∧
      (StSpace d f.cs ∧ f.value = styblinskiTangValue f.cs ∧ f.cs.get ("x" ++ toString k) = .ok hp ∧ hp ∈ f.cs) ∧
      (s.configs.length = 32 * d - 20 ∧ s.ys.length = s.configs.length ∧
        (∀ (j : Nat) c y, s.configs[j]? = some c → s.ys[j]? = some y → styblinskiTangValue f.cs c = .ok y) ∧
        ∃ (j : Nat) (v : ℝ), s.configs[j]? = some best ∧ s.ys[j]? = some v ∧ ∀ y ∈ s.ys, v ≤ y) ∧
      (GpSurrogate.new.fit i.choose (s.configs.map Config.vector) s.ys = (gp, .ok ()) ∧ RowWise d gp.predict mu sd ∧
        ∀ r, r.length = d → 0 < sd r ∧ sd r ≤ spread s.ys) ∧
      (grid = (linspace 0 1 perAxis).map fun t => [t]) ∧ samples ≠ [] ∧ inside ≠ [] ∧ (∀ r ∈ samples, r.length = d) ∧ (∀ r ∈ inside, r ∈ samples) ∧
      (RegionShape grid.length f.cs.length root ∧ curves root = samples.map (curveOf f.cs [hp] mu sd grid)) ∧
      (RegionShape grid.length f.cs.length region ∧ curves region = inside.map (curveOf f.cs [hp] mu sd grid)) ∧
      (containsAll f.cs region.conds best = .ok true ∧ regionImplied f.cs region.conds = .ok box ∧ Within box best) ∧
      regionPdp f.cs [hp] region = .ok part ∧ (curve.y.length = perAxis ∧ curve.v.length = perAxis ∧ part.y.length = perAxis ∧ part.v.length = perAxis) ∧
      (∀ (p : Nat) t, grid[p]? = some t → curve.y[p]? = some (averageOver samples fun r => mu (replaced f.cs [hp] t r)) ∧
          curve.v[p]? = some (averageOver samples fun r => sd (replaced f.cs [hp] t r) ^ 2)) ∧
      (∀ (p : Nat) t, grid[p]? = some t → part.y[p]? = some (averageOver inside fun r => mu (replaced f.cs [hp] t r)) ∧
          part.v[p]? = some (averageOver inside fun r => sd (replaced f.cs [hp] t r) ^ 2)) ∧
      a = (grid.map fun t => averageOver samples fun r => abs (sd (replaced f.cs [hp] t r))).sum / grid.length ∧
      b = (grid.map fun t => averageOver inside fun r => abs (sd (replaced f.cs [hp] t r))).sum / grid.length ∧
      (minPoints ≤ inside.length ∨ inside = samples) ∧
      ∃ draws, i.iceDraws = .many draws ∧ samples = draws.map Config.vector ∧ inside = samplesIn f.cs region.conds draws := by
  obtain ⟨cs, h1, hs, hnames⟩ := stSpace_ok hi.order d
  rw [hf] at h1
  have hfe : f = ⟨cs, styblinskiTangValue cs⟩ := Except.ok.inj h1
  have hcs : f.cs = cs := by rw [hfe]
  rw [hcs] at hi
  obtain ⟨hp, hh, hname⟩ := hnames k hk1 hk2
  have hget : cs.get ("x" ++ toString k) = .ok hp := by rw [← hname]; exact ConfigSpace.get_of_mem hs.wf hh
  obtain ⟨env, s, henv, hsamp, hlen, hdrawn, hyl, hvals⟩ := main_sampler hd hs hi kind hn (initial := d * 4) (n := 32 * d - 20) (by omega) (by omega)
  replace hlen : s.configs.length = 32 * d - 20 := by omega
  have hne : s.configs ≠ [] := by
    intro h; rw [h] at hlen; simp at hlen; omega
  have hdata : TrainingData cs.length (s.configs.map Config.vector) s.ys := configs_data (by rw [hs.len]; exact hd) hne (fun c hc => (hdrawn c hc).1) hyl
  obtain ⟨gp, hfit, -, mu, sd, hrow, hsd0, hsd⟩ := C99_unit hi.kernel hdata
  obtain ⟨l, hl, hlne, hld⟩ := hi.ice
  obtain ⟨samples, hsm⟩ : ∃ x, x = l.map Config.vector := ⟨_, rfl⟩
  have hsne : samples ≠ [] := by rw [hsm]; simpa using hlne
  have hrows : ∀ r ∈ samples, r.length = cs.length := by
    intro r hr
    rw [hsm] at hr
    obtain ⟨c, hc, rfl⟩ := List.mem_map.1 hr
    exact (hld c hc).1
  have hconf : ∀ r, ∃ c : Config ℝ, r ∈ samples → c ∈ l ∧ c.vector = r := by
    intro r
    by_cases hr : r ∈ samples
    · have hr' := hr
      rw [hsm] at hr'
      obtain ⟨c, hc, rfl⟩ := List.mem_map.1 hr'
      exact ⟨c, fun _ => ⟨hc, rfl⟩⟩
    · exact ⟨⟨[], []⟩, fun h => absurd h hr⟩
  choose config hconfig' using hconf
  have hconfig : ∀ r ∈ samples, ConfigOf cs r (config r) := fun r hr => by
    obtain ⟨a, b⟩ := hconfig' r hr
    have := (hld _ a).2.2.2
    rwa [b] at this
  obtain ⟨j, best, v, hinc, hj, hjv, hbest⟩ := incumbent_best hyl hne
  have hsel : convertHyperparameters (.one hp) cs = .ok [hp] := by
    have : resolveItem cs (.hp hp) = .ok hp := rfl
    simp [convertHyperparameters, this]
  obtain ⟨c, pdp, curve, tree, tree', leaves, region, k1, k2, k3, k4, k5, k6, grid, box, part, inside, ⟨g1, g2, g3, g4, g5, g6⟩, -, gl, q1, q2, q3, q4, q5,
    q6, q7, -, q8, q9, q10, q11, q12, q13, q14, q15⟩ :=
    workflow_curves hs.wf hs.float hrow hsel (by simpa using hh) (by simp) (by simp) hrows hsne hg numSplits hm hdep
      ((hdrawn best (List.mem_of_getElem? hj)).within hs) (config := config) (fun r hr => hconfig r hr)
  have hgrid : grid = (linspace 0 1 perAxis).map fun t => [t] := by
    rw [List.length_singleton, gridPoints_one] at g1
    exact (Except.ok.inj g1).symm
  have hglen : grid.length = perAxis := by rw [gl, List.length_singleton, pow_one]
  have hsub : ∀ r ∈ inside, r ∈ samples := by
    intro r hr; rw [q9] at hr; exact List.mem_of_mem_filter hr
  refine ⟨hp, s, gp, best, curve, part, tree'.root, region, box, _, _, samples, inside, mu, sd, grid, ?_, ⟨by rw [hcs]; exact hs, by rw [hfe], by rw [hcs]; exact hget, by rw [hcs]; exact hh⟩,
    ⟨hlen, hyl, by rw [hcs]; exact hvals, j, v, hj, hjv, hbest⟩, ⟨hfit, hs.len ▸ hrow, fun r hr => ?_⟩, hgrid, hsne, q10, fun r hr => by rw [hrows r hr, hs.len], hsub,
    by rw [hcs, g4]; exact ⟨g2, g5⟩, by rw [hcs]; exact ⟨g3, g6⟩, by rw [hcs]; exact ⟨q6, q7, q8⟩, by rw [hcs]; exact q12,
    ⟨by omega, by omega, by omega, by omega⟩, by rw [hcs]; exact q5, by rw [hcs]; exact q13, by rw [hcs], by rw [hcs], q11, l, hl, hsm, by rw [hcs, q9, hsm]; exact samplesIn_eq hs hld (by rw [← hsm]; exact hconfig') _⟩
  · unfold mainScript
    rw [hf, Py.ok_bind]
    dsimp only
    rw [hcs, hget, Py.ok_bind, henv, Py.ok_bind]
    dsimp only
    rw [hfe, hsamp]
    dsimp only
    rw [hfit]
    dsimp only
    rw [hl, samplesOf, Py.ok_bind, ← hsm, k1, Py.ok_bind, k2, Py.ok_bind, k3, Py.ok_bind, k4, Py.ok_bind, k5]
    dsimp only
    rw [hinc, Py.ok_bind]
    dsimp only
    rw [k6, Py.ok_bind]
    dsimp only
    rw [q7, Py.ok_bind]
    rw [g4, q14, q15]
    rfl
  · have := hsd r (by rw [hr, hs.len])
    exact ⟨this.1, this.2.1⟩

theorem averageOver_pos {rows : List (List ℝ)} (hr : rows ≠ []) {φ : List ℝ → ℝ} (h : ∀ r ∈ rows, 0 < φ r) : 0 < averageOver rows φ :=
  div_pos (List.sum_pos _ (fun v hv => by obtain ⟨r, hr, rfl⟩ := List.mem_map.1 hv; exact h r hr) (by simpa using hr))
    (by exact_mod_cast List.length_pos_iff.2 hr)

/-- the average of averages that are all in `(0, b]` -/
theorem mean_grid_bounds {grid rows : List (List ℝ)} (hg : grid ≠ []) (hr : rows ≠ []) {φ : List ℝ → List ℝ → ℝ} {b : ℝ}
    (h : ∀ t ∈ grid, ∀ r ∈ rows, 0 < φ t r ∧ φ t r ≤ b) :
    0 < (grid.map fun t => averageOver rows (φ t)).sum / grid.length ∧ (grid.map fun t => averageOver rows (φ t)).sum / grid.length ≤ b := by
  have e : (grid.map fun t => averageOver rows (φ t)).sum / grid.length = averageOver grid fun t => averageOver rows (φ t) := rfl
  rw [e]
  exact ⟨averageOver_pos hg fun t ht => averageOver_pos hr fun r hr' => (h t ht r hr').1,
    averageOver_le hg fun t ht => averageOver_le hr fun r hr' => (h t ht r hr').2⟩

/-- **C102** examples/main.py runs through in every dimension `d ≥ 2`, for every selected axis and whatever is drawn. It evaluates `32 d - 20`
points of the function; the incumbent is the best of them; the region and its implied space contain the incumbent. The two likelihoods
compare the PDP (of all samples, of the region's samples) with the exact partial dependence
`(x⁴ - 16 x² + 5 x) / 2 - 25 (d - 1) / 6` at the grid points `x` from -5 to 5, under normal distributions with positive variances. The mean
confidences are positive and at most the standard deviation of the evaluated values, so their relative change (line 72) exists and is
below 1; it is positive exactly if the region is more certain. PDP and confidences are means of the predictions of a Gaussian process fitted to exactly the evaluated points: at
every grid point over all random samples, or over those of them that are in the region. -/
theorem C102_main {S : Type} {i : MainInput S} {d : Nat} (hd : 2 ≤ d) {f : BlackboxFn ℝ}
    (hf : forNDimensions i.order (-5) 5 false styblinskiTangValue (d : ℝ) none none = .ok f) (hi : i.Good f.cs) {k : Nat} (hk1 : 1 ≤ k) (hk2 : k ≤ d)
    (kind : AcqKind) {nCandidates : Int} (hn : 2 ≤ nCandidates) {perAxis : Nat} (hg : 1 ≤ perAxis) (numSplits : Nat) {minPoints : Nat}
    (hm : 1 ≤ minPoints) {depth : Int} (hdep : 0 < depth) :
    ∃ (res : MainResult S) (hp : Hp ℝ) (part : IceCurve ℝ) (δ : ℝ),
      mainScript i d ("x" ++ toString k) kind nCandidates perAxis numSplits minPoints depth = .ok res ∧
      f.cs.get ("x" ++ toString k) = .ok hp ∧
      res.sampler.configs.length = 32 * d - 20 ∧ res.sampler.ys.length = 32 * d - 20 ∧
      (∀ (j : Nat) c y, res.sampler.configs[j]? = some c → res.sampler.ys[j]? = some y → f.value c = .ok y) ∧
      (∃ (j : Nat) (v : ℝ), res.sampler.configs[j]? = some res.incumbent ∧ res.sampler.ys[j]? = some v ∧ ∀ y ∈ res.sampler.ys, v ≤ y) ∧
      containsAll f.cs res.region.conds res.incumbent = .ok true ∧ Within res.implied res.incumbent ∧
      (minPoints ≤ res.region.y.length ∨ res.region.y.length = res.root.y.length) ∧
      regionPdp f.cs [hp] res.region = .ok part ∧
      res.pdp.y.length = perAxis ∧ res.pdp.v.length = perAxis ∧ part.y.length = perAxis ∧ part.v.length = perAxis ∧
      (∀ v ∈ res.pdp.v ++ part.v, 0 < v ∧ v ≤ spread res.sampler.ys ^ 2) ∧
      res.nllBase = gaussLoss perAxis (fun p => res.pdp.y.getD p 0) (fun p => res.pdp.v.getD p 0) (fun p => stPartial d (-5 + 10 * gridFraction perAxis p)) ∧
      res.nllLeaf = gaussLoss perAxis (fun p => part.y.getD p 0) (fun p => part.v.getD p 0) (fun p => stPartial d (-5 + 10 * gridFraction perAxis p)) ∧
      (0 < res.mcBase ∧ res.mcBase ≤ spread res.sampler.ys) ∧ (0 < res.mcLeaf ∧ res.mcLeaf ≤ spread res.sampler.ys) ∧
      calculateLogDelta res.mcLeaf res.mcBase = .ok δ ∧ δ < 1 ∧ (0 < δ ↔ res.mcLeaf < res.mcBase) ∧
      -- what is plotted and compared
      ∃ (e : Nat) (draws : List (Config ℝ)) (mu sd : List ℝ → ℝ), f.cs[e]? = some hp ∧ i.iceDraws = .many draws ∧
        GpSurrogate.new.fit i.choose (res.sampler.configs.map Config.vector) res.sampler.ys = (res.surrogate, .ok ()) ∧ RowWise d res.surrogate.predict mu sd ∧
        res.pdp.y = pdpMeans (draws.map Config.vector) mu e perAxis ∧ res.pdp.v = pdpMeans (draws.map Config.vector) (fun r => sd r ^ 2) e perAxis ∧
        part.y = pdpMeans (samplesIn f.cs res.region.conds draws) mu e perAxis ∧ part.v = pdpMeans (samplesIn f.cs res.region.conds draws) (fun r => sd r ^ 2) e perAxis ∧
        res.mcBase = (pdpMeans (draws.map Config.vector) sd e perAxis).sum / perAxis ∧
        res.mcLeaf = (pdpMeans (samplesIn f.cs res.region.conds draws) sd e perAxis).sum / perAxis := by
  obtain ⟨hp, s, gp, best, curve, part, root, region, box, a, b, samples, inside, mu, sd, grid, hmain, ⟨hs, hfv, hget, hh⟩, ⟨s1, s2, s3, s4⟩, ⟨hfit, hrow, hsd⟩, hgrid,
    hsne, hine, hrows, hsub, ⟨r1, r2⟩, ⟨t1, t2⟩, ⟨u1, u2, u3⟩, v1, ⟨l1, l2, l3, l4⟩, w1, w2, ha, hb, hmin, draws, hdraws, hsam, hins⟩ :=
    main_until (by omega : 1 ≤ d) hf hi hk1 hk2 kind hn hg numSplits hm hdep
  have hsd' : ∀ r, r.length = f.cs.length → 0 < sd r := fun r hr => (hsd r (by rw [hr, hs.len])).1
  have hrows' : ∀ r ∈ samples, r.length = f.cs.length := fun r hr => by rw [hrows r hr, hs.len]
  obtain ⟨n1, p1⟩ := region_nll hi.order i.inv hd hs hh hgrid r1 hsne hrows' hsd' r2
  obtain ⟨n2, p2⟩ := region_nll hi.order i.inv hd hs hh hgrid t1 hine (fun r hr => hrows' r (hsub r hr)) hsd' t2
  rw [n1, n2] at hmain
  have hglen : grid.length = perAxis := by rw [hgrid, List.length_map, linspace_length]
  have hgp : ∀ p < perAxis, grid[p]? = some [gridFraction perAxis p] := by
    intro p hp'
    rw [hgrid, List.getElem?_map, (linspace_fraction hp').1]; rfl
  have hg0 : grid ≠ [] := by
    intro h; rw [h] at hglen; simp at hglen; omega
  have hbound : ∀ rows : List (List ℝ), (∀ r ∈ rows, r ∈ samples) → ∀ t ∈ grid, ∀ r ∈ rows,
      0 < abs (sd (replaced f.cs [hp] t r)) ∧ abs (sd (replaced f.cs [hp] t r)) ≤ spread s.ys := by
    intro rows hsub t _ r hr
    have := hsd (replaced f.cs [hp] t r) (by rw [replaced_length (hrows' r (hsub r hr)), hs.len])
    rw [abs_of_pos this.1]
    exact this
  have hA := mean_grid_bounds hg0 hsne (hbound samples fun _ h => h)
  have hB := mean_grid_bounds hg0 hine (hbound inside hsub)
  rw [← ha] at hA
  rw [← hb] at hB
  have hvar : ∀ rows : List (List ℝ), rows ≠ [] → (∀ r ∈ rows, r ∈ samples) → ∀ l : List ℝ, l.length = perAxis →
      (∀ (p : Nat) t, grid[p]? = some t → l[p]? = some (averageOver rows fun r => sd (replaced f.cs [hp] t r) ^ 2)) →
      ∀ v ∈ l, 0 < v ∧ v ≤ spread s.ys ^ 2 := by
    intro rows hne hin l hl hat v hv
    obtain ⟨p, hp', rfl⟩ := List.getElem_of_mem hv
    have hpg : p < grid.length := by omega
    have := hat p _ (List.getElem?_eq_getElem hpg)
    rw [List.getElem?_eq_getElem hp'] at this
    rw [Option.some.inj this]
    have hb' := hbound rows hin _ (List.getElem_mem hpg)
    refine ⟨averageOver_pos hne fun r hr => ?_, averageOver_le hne fun r hr => ?_⟩
    · rw [← sq_abs]; exact pow_pos (hb' r hr).1 2
    · rw [← sq_abs]; exact pow_le_pow_left₀ (abs_nonneg _) (hb' r hr).2 2
  have hloss : ∀ (y v : List ℝ) (rows : List (List ℝ)), (∀ (p : Nat) t, grid[p]? = some t → y[p]? = some (averageOver rows fun r => mu (replaced f.cs [hp] t r)) ∧
          v[p]? = some (averageOver rows fun r => sd (replaced f.cs [hp] t r) ^ 2)) →
      gaussLoss perAxis (fun p => averageOver rows fun r => mu (replaced f.cs [hp] [gridFraction perAxis p] r))
        (fun p => averageOver rows fun r => sd (replaced f.cs [hp] [gridFraction perAxis p] r) ^ 2) (fun p => stPartial d (-5 + 10 * gridFraction perAxis p)) =
      gaussLoss perAxis (fun p => y.getD p 0) (fun p => v.getD p 0) (fun p => stPartial d (-5 + 10 * gridFraction perAxis p)) := by
    intro y v rows hat
    unfold gaussLoss
    congr 2
    refine Finset.sum_congr rfl fun p hp' => ?_
    obtain ⟨e1, e2⟩ := hat p _ (hgp p (Finset.mem_range.1 hp'))
    simp only [List.getD_eq_getElem?_getD, e1, e2, Option.getD_some]
  have hyl : ∀ {n : Node ℝ} {rows : List (List ℝ)}, RegionShape grid.length f.cs.length n → curves n = rows.map (curveOf f.cs [hp] mu sd grid) → n.y.length = rows.length := by
    intro n rows hn hc
    have := congrArg List.length hc
    rw [hn.curves_length, List.length_map] at this
    rw [← this]; exact hn.xy.symm
  refine ⟨_, hp, part, (a - b) / |a|, hmain, hget, s1, s2.trans s1, by rw [hfv]; exact s3, s4, u1, u3, ?_, v1, l1, l2, l3, l4, ?_, hloss _ _ _ w1, hloss _ _ _ w2, hA, hB, ?_, ?_, ?_, ?_⟩
  · dsimp only
    rw [hyl t1 t2, hyl r1 r2]
    rcases hmin with h | h
    · exact .inl h
    · exact .inr (by rw [h])
  · intro v hv
    rcases List.mem_append.1 hv with hv | hv
    · exact hvar samples hsne (fun _ h => h) _ l2 (fun p t ht => (w1 p t ht).2) v hv
    · exact hvar inside hine hsub _ l4 (fun p t ht => (w2 p t ht).2) v hv
  · rw [calculateLogDelta, if_neg hA.1.ne']
  · rw [abs_of_pos hA.1, div_lt_one hA.1]; linarith [hB.1]
  · rw [abs_of_pos hA.1, div_pos_iff_of_pos_right hA.1, sub_pos]
  · obtain ⟨e, he⟩ := List.mem_iff_getElem?.1 hh
    have hin' : ∀ r ∈ inside, r.length = List.length f.cs := fun r hr => hrows' r (hsub r hr)
    refine ⟨e, draws, mu, sd, he, hdraws, hfit, hrow, ?_, ?_, ?_, ?_, ?_, ?_⟩ <;> dsimp only
    · rw [← hsam]; exact eq_pdpMeans hs.wf he hgrid hrows' l1 fun p t ht => (w1 p t ht).1
    · rw [← hsam]; exact eq_pdpMeans hs.wf he hgrid hrows' l2 fun p t ht => (w1 p t ht).2
    · rw [← hins]; exact eq_pdpMeans hs.wf he hgrid hin' l3 fun p t ht => (w2 p t ht).1
    · rw [← hins]; exact eq_pdpMeans hs.wf he hgrid hin' l4 fun p t ht => (w2 p t ht).2
    · rw [← hsam, ha]; exact mean_pdpMeans hs.wf he hgrid hrows' hsd'
    · rw [← hins, hb]; exact mean_pdpMeans hs.wf he hgrid hin' hsd'

/-- **C102** In one dimension the script fails with a ValueError at line 59: no hyperparameter is left to integrate over. -/
theorem C102_one_dimension {S : Type} {i : MainInput S} {f : BlackboxFn ℝ}
    (hf : forNDimensions i.order (-5) 5 false styblinskiTangValue ((1 : Nat) : ℝ) none none = .ok f) (hi : i.Good f.cs)
    (kind : AcqKind) {nCandidates : Int} (hn : 2 ≤ nCandidates) {perAxis : Nat} (hg : 1 ≤ perAxis) (numSplits : Nat) {minPoints : Nat}
    (hm : 1 ≤ minPoints) {depth : Int} (hdep : 0 < depth) :
    mainScript i 1 "x1" kind nCandidates perAxis numSplits minPoints depth = .error .value := by
  obtain ⟨hp, s, gp, best, curve, part, root, region, box, a, b, samples, inside, mu, sd, grid, hmain, ⟨hs, -, -, hh⟩, -⟩ :=
    main_until le_rfl hf hi le_rfl le_rfl kind hn hg numSplits hm hdep
  have hone : f.cs = [hp] := by
    obtain ⟨x, hx⟩ := List.length_eq_one_iff.1 hs.len
    rw [hx] at hh ⊢
    rw [List.mem_singleton.1 hh]
  have he := (C63_errors i.inv i.order (space := f.cs) (hp := hp) (rest := []) ⟨hp, hh, rfl⟩ root f.cs).1 (by
    intro h hm'
    rw [hone] at hm'
    exact ⟨hp, by simp, by rw [List.mem_singleton.1 hm']⟩)
  rw [he] at hmain
  exact hmain

/-- the configuration in the middle of the space -/
noncomputable def midConfig (cs : ConfigSpace ℝ) : Config ℝ := ⟨cs.map fun _ => 1/2, cs.map fun hp => (hp.name, .num 0)⟩

theorem midConfig_drawn {d : Nat} {cs : ConfigSpace ℝ} (hs : StSpace d cs) : DrawnFrom cs (midConfig cs) := by
  refine ⟨by simp [midConfig], fun e he => ?_, by simp [midConfig], fun j hp l u g e hj hk he => ?_⟩
  · simp only [midConfig, List.mem_map] at he
    obtain ⟨_, _, rfl⟩ := he
    norm_num
  · have hm := List.mem_of_getElem? hj
    have := hs.kind hp hm
    rw [hk] at this
    cases this
    have he' : e = 1/2 := by
      simp only [midConfig, List.getElem?_map, hj, Option.map_some, Option.some.injEq] at he
      exact he.symm
    have h0 : interpolate (-5) 5 false e = 0 := by rw [he']; simp only [interpolate]; norm_num
    rw [h0]
    exact get?_of_mem (by rw [List.map_map]; exact hs.wf) (List.mem_map.2 ⟨hp, hm, rfl⟩) _

/-- the hypotheses hold in the dimension of the script (76 evaluated points), here with a generator that always draws the middle of the space -/
example : ∃ (i : MainInput Unit) (res : MainResult Unit), mainScript i 3 "x1" (.lcb 1) 100 20 100 10 2 = .ok res ∧
    res.sampler.ys.length = 76 ∧ res.pdp.y.length = 20 ∧ 0 < res.mcLeaf := by
  obtain ⟨cs, hf, hs, -⟩ := stSpace_ok (order := id) (fun l => List.Perm.refl l) 3
  obtain ⟨dr, hdr⟩ : ∃ dr : Drawer (Config ℝ) Unit, dr = ⟨fun _ n => (List.replicate n (midConfig cs), ()), by simp⟩ := ⟨_, rfl⟩
  have hdrawn : ∀ s n, ∀ c ∈ (dr.draw s n).1, DrawnFrom cs c := by
    intro s n c hc
    rw [hdr] at hc
    rw [List.eq_of_mem_replicate hc]
    exact midConfig_drawn hs
  obtain ⟨res, hp, part, δ, h1, -, -, h2, -, -, -, -, -, -, h3, -, -, -, -, -, -, -, h4, -⟩ := C102_main (S := Unit) (d := 3)
    (i := ⟨id, fun _ _ => matern 1, fun _ _ => 0, dr, dr, (), fun _ => .error .value, .absent, .many (List.replicate 1000 (midConfig cs))⟩)
    (by norm_num) hf ⟨fun l => List.Perm.refl l, fun _ _ => matern_unit one_pos _, hdrawn, hdrawn, by simp [loadCache],
      ⟨_, rfl, List.ne_nil_of_length_pos (by rw [List.length_replicate]; norm_num), fun c hc => by rw [List.eq_of_mem_replicate hc]; exact midConfig_drawn hs⟩⟩ (k := 1) le_rfl (by norm_num) (.lcb 1)
    (nCandidates := 100) (by norm_num) (perAxis := 20) (by norm_num) 100 (minPoints := 10) (by norm_num) (depth := 2) (by norm_num)
  exact ⟨_, res, h1, h2, h3, h4.1⟩

/-- the exact partial dependence at the middle of the axis, three dimensions -/
example : stPartial 3 0 = -(25 / 3) := by norm_num [stPartial]

end PyPDP
