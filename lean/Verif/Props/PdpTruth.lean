/-
C129: the PDP of a perfect surrogate of StyblinskiTang and the analytic partial dependence.
-/
import Verif.Props.PdpConsistency
import Verif.Props.PdIntegral
import Mathlib.Probability.Independence.InfinitePi

namespace PyPDP
open Spec MeasureTheory ProbabilityTheory Filter Topology
variable {Ω : Type} [MeasurableSpace Ω]

/-- the natural value of a hyperparameter whose normalised value is `v` -/
noncomputable def Spec.naturalValue (hp : Hp ℝ) (v : ℝ) : ℝ :=
  match hp.kind with
  | .float l u log => interpolate l u log v
  | .integer l u log => interpolate l u log v
  | _ => 0

/-- the numbers a normalised vector stands for -/
noncomputable def Spec.naturalOf (cs : ConfigSpace ℝ) (r : List ℝ) : Assignment := fun n =>
  match (cs.zip r).find? (fun q => q.1.name == n) with
  | some q => naturalValue q.1 q.2
  | none => 0

theorem naturalOf_at {cs : ConfigSpace ℝ} (hwf : cs.WF) {r : List ℝ} (hr : r.length = cs.length) {f : Nat} {hp : Hp ℝ} (hf : cs[f]? = some hp) :
    naturalOf cs r hp.name = naturalValue hp (r.getD f 0) := by
  obtain ⟨hl, he⟩ := List.getElem?_eq_some_iff.1 hf
  have : (cs.zip r).find? (fun q => q.1.name == hp.name) = some (hp, r[f]'(by omega)) := by
    rw [List.find?_eq_some_iff_getElem]
    refine ⟨by simp, f, by simp; omega, by simp [he], ?_⟩
    intro j hj
    rw [Bool.not_eq_true', beq_eq_false_iff_ne]
    intro hn
    simp only [List.getElem_zip] at hn
    have h1 : (cs.map Hp.name)[j]'(by simp; omega) = (cs.map Hp.name)[f]'(by simpa using hl) := by simp [hn, he]
    have := (List.Nodup.getElem_inj_iff hwf).1 h1
    omega
  rw [naturalOf, this, List.getD_eq_getElem?_getD, List.getElem?_eq_getElem (by omega : f < r.length)]
  rfl

/-- `mu` is the StyblinskiTang function on the space `cs`, as a function of the normalised vector. -/
def Spec.IsStyblinskiTang (cs : ConfigSpace ℝ) (mu : List ℝ → ℝ) : Prop :=
  ∀ r : List ℝ, r.length = cs.length → styblinskiTangValue cs (assignConfig cs (naturalOf cs r)) = .ok (mu r)

/-- the hyperparameters of the space that are not selected -/
def Spec.others (cs : ConfigSpace ℝ) (selected : List (Hp ℝ)) : List (Hp ℝ) := cs.filter fun hp => decide (hp.name ∉ selected.map Hp.name)

theorem others_reads {cs : ConfigSpace ℝ} (hwf : cs.WF) (selected : List (Hp ℝ)) :
    ReadsOthers cs selected fun r => ((others cs selected).map fun hp => stTerm (naturalOf cs r hp.name)).sum := by
  intro r r' hr hr' h
  dsimp only
  congr 1
  refine List.map_congr_left fun hp hm => ?_
  obtain ⟨h1, h2⟩ := List.mem_filter.1 hm
  obtain ⟨f, hf⟩ := List.mem_iff_getElem?.1 h1
  rw [naturalOf_at hwf hr hf, naturalOf_at hwf hr' hf, List.getD_eq_getElem?_getD, List.getD_eq_getElem?_getD, h f ?_]
  rintro s hs ⟨q, hq, hn⟩
  rw [hf] at hq
  obtain rfl := Option.some.inj hq
  exact (of_decide_eq_true h2) (List.mem_map.2 ⟨s, hs, hn.symm⟩)

theorem selected_reads {cs : ConfigSpace ℝ} (hwf : cs.WF) (selected : List (Hp ℝ)) :
    ReadsSelected cs selected fun r => ((cs.filter fun hp => !decide (hp.name ∉ selected.map Hp.name)).map fun hp => stTerm (naturalOf cs r hp.name)).sum := by
  intro r r' hr hr' h
  dsimp only
  congr 1
  refine List.map_congr_left fun hp hm => ?_
  obtain ⟨h1, h2⟩ := List.mem_filter.1 hm
  obtain ⟨f, hf⟩ := List.mem_iff_getElem?.1 h1
  have h2 : hp.name ∈ selected.map Hp.name := by simpa using h2
  obtain ⟨s, hs, hn⟩ := List.mem_map.1 h2
  rw [naturalOf_at hwf hr hf, naturalOf_at hwf hr' hf, List.getD_eq_getElem?_getD, List.getD_eq_getElem?_getD, h s hs f ⟨hp, hf, hn.symm⟩]

theorem sum_filter_split {α : Type} (l : List α) (p : α → Bool) (f : α → ℝ) :
    (l.map f).sum = ((l.filter fun a => !p a).map f).sum + ((l.filter p).map f).sum := by
  induction l with
  | nil => simp
  | cons a as ih =>
    cases h : p a <;> simp [h, ih] <;> ring

/-- StyblinskiTang is a function of the selected hyperparameters plus a function of the others -/
theorem st_split {cs : ConfigSpace ℝ} {mu : List ℝ → ℝ} (hmu : IsStyblinskiTang cs mu) (selected : List (Hp ℝ)) {r : List ℝ} (hr : r.length = cs.length) :
    mu r = ((cs.filter fun hp => !decide (hp.name ∉ selected.map Hp.name)).map fun hp => stTerm (naturalOf cs r hp.name)).sum
      + ((others cs selected).map fun hp => stTerm (naturalOf cs r hp.name)).sum := by
  have h := hmu r hr
  rw [st_value _ fun _ h => h] at h
  rw [← Except.ok.inj h]
  exact sum_filter_split _ _ _

/-- what `pd_integral` over the other hyperparameters returns -/
theorem st_truth {order : SpaceOrder ℝ} (hord : ∀ l, (order l).Perm l) {cs : ConfigSpace ℝ} (hwf : cs.WF) {selected : List (Hp ℝ)}
    (hne : others cs selected ≠ []) (hkind : ∀ hp ∈ others cs selected, ∃ l u log, hp.kind = .float l u log ∨ hp.kind = .integer l u log) :
    ∃ (f : BlackboxFn ℝ) (offset : ℝ), styblinskiTangPdIntegral order cs ((others cs selected).map .hp) = .ok (f, offset) ∧
      (∃ bounds : Hp ℝ → ℝ × ℝ, (∀ hp ∈ others cs selected, ∃ log, hp.kind = .float (bounds hp).1 (bounds hp).2 log ∨ hp.kind = .integer (bounds hp).1 (bounds hp).2 log) ∧
        offset = ((others cs selected).map fun hp => (∫ t in (bounds hp).1..(bounds hp).2, stTerm t) / ((bounds hp).2 - (bounds hp).1)).sum) ∧
      ∀ ρ : Assignment, f.value (assignConfig f.cs ρ) = .ok
        (((cs.filter fun hp => !decide (hp.name ∉ selected.map Hp.name)).map fun hp => stTerm (ρ hp.name)).sum + offset) := by
  obtain ⟨bounds, hb⟩ : ∃ bounds : Hp ℝ → ℝ × ℝ, ∀ hp ∈ others cs selected, ∃ log, hp.kind = .float (bounds hp).1 (bounds hp).2 log ∨
      hp.kind = .integer (bounds hp).1 (bounds hp).2 log := by
    refine ⟨fun hp => match hp.kind with
      | .float l u _ => (l, u)
      | .integer l u _ => (l, u)
      | _ => (0, 0), fun hp hm => ?_⟩
    obtain ⟨l, u, log, h | h⟩ := hkind hp hm
    · exact ⟨log, .inl (by dsimp only; rw [h])⟩
    · exact ⟨log, .inr (by dsimp only; rw [h])⟩
  have hden : ∀ l : List (Hp ℝ), List.Forall₂ (Denotes cs) (l.map .hp) l := by
    intro l
    induction l with
    | nil => exact .nil
    | cons a as ih => exact .cons rfl ih
  have hax : ∀ l : List (Hp ℝ), (∀ hp ∈ l, hp ∈ others cs selected) → List.Forall₂ (fun (hp : Hp ℝ) (a : Axis) => hp.name = a.name ∧
      ((∃ log, hp.kind = .float a.lower a.upper log) ∨ ∃ log, hp.kind = .integer a.lower a.upper log)) l
      (l.map fun hp => ⟨hp.name, (bounds hp).1, (bounds hp).2⟩) := by
    intro l
    induction l with
    | nil => exact fun _ => .nil
    | cons a as ih =>
      intro h
      refine .cons ⟨rfl, ?_⟩ (ih fun hp hh => h hp (by simp [hh]))
      obtain ⟨log, h1 | h1⟩ := hb a (h a (by simp))
      · exact .inl ⟨log, h1⟩
      · exact .inr ⟨log, h1⟩
  obtain ⟨f, offset, h1, h2, h3⟩ := C18_occurrences hord hwf (hden (others cs selected)) (by simpa using hne) (hax _ fun _ h => h)
  refine ⟨f, offset, h1, ⟨bounds, hb, ?_⟩, fun ρ => ?_⟩
  · rw [h2, List.map_map]; rfl
  · rw [h3]
    congr 4
    apply List.filter_congr
    intro hp hm
    rw [Bool.eq_iff_iff]
    simp only [decide_eq_true_eq, Bool.not_eq_true', decide_eq_false_iff_not, List.map_map, Function.comp_def, not_not]
    constructor
    · intro h
      by_contra hno
      exact h (List.mem_map.2 ⟨hp, List.mem_filter.2 ⟨hm, by simpa using hno⟩, rfl⟩)
    · intro h hin
      obtain ⟨q, hq, hn⟩ := List.mem_map.1 hin
      have := of_decide_eq_true (List.mem_filter.1 hq).2
      rw [hn] at this
      exact this h

/-! ### C129 -/

/-- **C129** for a surrogate whose mean is the StyblinskiTang function itself: the PDP of any samples differs from the function that `pd_integral` returns for the
other hyperparameters by one constant, the same at all grid points. -/
theorem C129_shift {order : SpaceOrder ℝ} (hord : ∀ l, (order l).Perm l) {cs : ConfigSpace ℝ} {predict : Predict ℝ} {sel : Selection ℝ} {selected : List (Hp ℝ)} {g : Nat}
    {grid : List (List ℝ)} {mu sd : List ℝ → ℝ} (h : PdpSetting cs predict sel selected g grid mu sd) (hmu : IsStyblinskiTang cs mu)
    (hne : others cs selected ≠ []) (hkind : ∀ hp ∈ others cs selected, ∃ l u log, hp.kind = .float l u log ∨ hp.kind = .integer l u log)
    {samples : List (List ℝ)} (hn : samples ≠ []) (hrows : ∀ r ∈ samples, r.length = cs.length) :
    ∃ (f : BlackboxFn ℝ) (offset : ℝ) (y : List ℝ) (δ : ℝ), styblinskiTangPdIntegral order cs ((others cs selected).map .hp) = .ok (f, offset) ∧
      yPdp cs predict sel samples g = .ok y ∧ y.length = grid.length ∧
      ∀ (p : Nat) (t : List ℝ), grid[p]? = some t → ∀ r : List ℝ, r.length = cs.length →
        ∃ v, f.value (assignConfig f.cs (naturalOf cs (atPoint cs selected t r))) = .ok v ∧ y[p]? = some (v + δ) := by
  obtain ⟨f, offset, h1, -, h3⟩ := st_truth (selected := selected) hord h.wf hne hkind
  obtain ⟨y, hy, hl, hv⟩ := C127_pdp h.wf h.sel_eq h.mem h.ne h.distinct h.rowWise (fun r hr => st_split hmu selected hr)
    (selected_reads h.wf selected) (others_reads h.wf selected) hn hrows h.grid_pos h.grid_eq
  refine ⟨f, offset, y, (samples.map fun r => ((others cs selected).map fun hp => stTerm (naturalOf cs r hp.name)).sum).sum / (samples.length : ℝ) - offset,
    h1, hy, hl, fun p t ht r hr => ⟨_, h3 _, ?_⟩⟩
  rw [hv p t ht r hr]
  congr 1
  ring

theorem stTerm_continuous : Continuous stTerm := by unfold stTerm; fun_prop

theorem naturalValue_continuous {hp : Hp ℝ} {l u : ℝ} (h : hp.kind = .float l u false) : naturalValue hp = fun v => (u - l) * v + l := by
  funext v
  simp only [naturalValue, h, interpolate, Bool.false_eq_true, if_false]
  ring

/-- the expected term of one hyperparameter -/
theorem term_expected {P : Measure Ω} {x : Ω → ℝ} (hx : Measurable x) (hu : P.map x = volume.restrict (Set.Icc 0 1)) {hp : Hp ℝ} {l u : ℝ}
    (hk : hp.kind = .float l u false) (hlu : l < u) :
    Integrable (fun ω => stTerm (naturalValue hp (x ω))) P ∧
    ∫ ω, stTerm (naturalValue hp (x ω)) ∂P = (∫ t in l..u, stTerm t) / (u - l) := by
  have hc : Continuous fun v => stTerm (naturalValue hp v) := by
    rw [naturalValue_continuous hk]; exact stTerm_continuous.comp (by fun_prop)
  constructor
  · have : Integrable (fun v => stTerm (naturalValue hp v)) (P.map x) := by
      rw [hu]; exact hc.continuousOn.integrableOn_compact isCompact_Icc
    exact this.comp_measurable hx
  · rw [← integral_map (φ := x) (f := fun v => stTerm (naturalValue hp v)) hx.aemeasurable (hc.aestronglyMeasurable), hu, integral_Icc_eq_integral_Ioc,
      ← intervalIntegral.integral_of_le zero_le_one]
    have hne : u - l ≠ 0 := by linarith
    have := intervalIntegral.integral_comp_mul_add (a := 0) (b := 1) stTerm hne l
    simp only [naturalValue_continuous hk]
    rw [this]
    simp only [mul_zero, zero_add, mul_one, sub_add_cancel, smul_eq_mul]
    field_simp

theorem st_expected {P : Measure Ω} {cs : ConfigSpace ℝ} (hwf : cs.WF) {X : Ω → Fin cs.length → ℝ} (hX : Measurable X)
    (hunif : ∀ f, P.map (fun ω => X ω f) = volume.restrict (Set.Icc 0 1)) {bounds : Hp ℝ → ℝ × ℝ} (l : List (Hp ℝ))
    (hl : ∀ hp ∈ l, hp ∈ cs ∧ hp.kind = .float (bounds hp).1 (bounds hp).2 false ∧ (bounds hp).1 < (bounds hp).2) :
    Integrable (fun ω => (l.map fun hp => stTerm (naturalOf cs (List.ofFn (X ω)) hp.name)).sum) P ∧
    ∫ ω, (l.map fun hp => stTerm (naturalOf cs (List.ofFn (X ω)) hp.name)).sum ∂P
      = (l.map fun hp => (∫ t in (bounds hp).1..(bounds hp).2, stTerm t) / ((bounds hp).2 - (bounds hp).1)).sum := by
  induction l with
  | nil => simp
  | cons a as ih =>
    obtain ⟨i1, i2⟩ := ih fun hp h => hl hp (by simp [h])
    obtain ⟨h1, h2, h3⟩ := hl a (by simp)
    obtain ⟨f, hf⟩ := List.mem_iff_getElem?.1 h1
    have hfl := (List.getElem?_eq_some_iff.1 hf).1
    obtain ⟨t1, t2⟩ := term_expected (P := P) (x := fun ω => X ω ⟨f, hfl⟩) ((measurable_pi_apply _).comp hX) (hunif ⟨f, hfl⟩) h2 h3
    have : (fun ω => stTerm (naturalOf cs (List.ofFn (X ω)) a.name)) = fun ω => stTerm (naturalValue a (X ω ⟨f, hfl⟩)) := by
      funext ω
      rw [naturalOf_at hwf (by simp) hf]
      simp [hfl]
    simp only [List.map_cons, List.sum_cons]
    rw [← this] at t1 t2
    exact ⟨t1.add i1, by rw [integral_add t1 i1, t2, i2]⟩

theorem st_measurable {cs : ConfigSpace ℝ} (hwf : cs.WF) (hfloat : ∀ hp ∈ cs, ∃ l u, hp.kind = .float l u false) (l : List (Hp ℝ)) (hl : ∀ hp ∈ l, hp ∈ cs) :
    Measurable fun x : Fin cs.length → ℝ => (l.map fun hp => stTerm (naturalOf cs (List.ofFn x) hp.name)).sum := by
  induction l with
  | nil => simp
  | cons a as ih =>
    obtain ⟨f, hf⟩ := List.mem_iff_getElem?.1 (hl a (by simp))
    have hfl := (List.getElem?_eq_some_iff.1 hf).1
    obtain ⟨lo, up, hk⟩ := hfloat a (hl a (by simp))
    have : (fun x : Fin cs.length → ℝ => stTerm (naturalOf cs (List.ofFn x) a.name)) = fun x => stTerm (naturalValue a (x ⟨f, hfl⟩)) := by
      funext x
      rw [naturalOf_at hwf (by simp) hf]
      simp [hfl]
    simp only [List.map_cons, List.sum_cons]
    refine Measurable.add ?_ (ih fun hp h => hl hp (by simp [h]))
    rw [this, naturalValue_continuous hk]
    exact (stTerm_continuous.measurable).comp (by fun_prop)

/-- **C129** for uniformly distributed samples on a space of linear float hyperparameters, the PDP of that surrogate converges almost surely to the function that
`pd_integral` returns for the other hyperparameters, at every grid point. -/
theorem C129_limit {order : SpaceOrder ℝ} (hord : ∀ l, (order l).Perm l) {P : Measure Ω} [IsProbabilityMeasure P] {cs : ConfigSpace ℝ} {predict : Predict ℝ}
    {sel : Selection ℝ} {selected : List (Hp ℝ)} {g : Nat} {grid : List (List ℝ)} {mu sd : List ℝ → ℝ}
    (h : PdpSetting cs predict sel selected g grid mu sd) (hmu : IsStyblinskiTang cs mu) (hne : others cs selected ≠ [])
    (hfloat : ∀ hp ∈ cs, ∃ l u, hp.kind = .float l u false ∧ l < u)
    {X : ℕ → Ω → Fin cs.length → ℝ} (hX : IsRandomSample P X) (hunif : ∀ f, P.map (fun ω => X 0 ω f) = volume.restrict (Set.Icc 0 1)) :
    ∃ (f : BlackboxFn ℝ) (offset : ℝ), styblinskiTangPdIntegral order cs ((others cs selected).map .hp) = .ok (f, offset) ∧
      ∀ᵐ ω ∂P, ∃ y : ℕ → List ℝ, (∀ n, 1 ≤ n → yPdp cs predict sel (firstSamples X n ω) g = .ok (y n) ∧ (y n).length = grid.length) ∧
        ∀ (p : Nat) (t : List ℝ), grid[p]? = some t → ∀ r : List ℝ, r.length = cs.length →
          ∃ v, f.value (assignConfig f.cs (naturalOf cs (atPoint cs selected t r))) = .ok v ∧ Tendsto (fun n => (y n).getD p 0) atTop (𝓝 v) := by
  have hsub : ∀ hp ∈ others cs selected, hp ∈ cs := fun hp hm => (List.mem_filter.1 hm).1
  obtain ⟨f, offset, h1, ⟨bounds, hb, hoff⟩, h3⟩ := st_truth (selected := selected) hord h.wf hne
    (fun hp hm => by obtain ⟨l, u, hk, _⟩ := hfloat hp (hsub hp hm); exact ⟨l, u, false, .inl hk⟩)
  refine ⟨f, offset, h1, ?_⟩
  have hadd : ∀ t ∈ grid, ∀ r r' : List ℝ, r.length = cs.length → r'.length = cs.length → mu (atPoint cs selected t r) = _ := fun t ht r r' hr hr' =>
    additive_atPoint h.distinct (fun r hr => st_split hmu selected hr) (selected_reads h.wf selected) (others_reads h.wf selected) hr hr'
      ((gridPoints_ok h.grid_eq).2 t ht)
  obtain ⟨e1, e2⟩ := st_expected h.wf (hX.meas 0) hunif (bounds := bounds) (others cs selected) (fun hp hm => by
    obtain ⟨l, u, hk, hlu⟩ := hfloat hp (hsub hp hm)
    obtain ⟨log, hk' | hk'⟩ := hb hp hm
    · rw [hk] at hk'
      obtain ⟨h1, h2, h3⟩ := HpKind.float.inj hk'
      exact ⟨hsub hp hm, by rw [hk, h1, h2], by rw [← h1, ← h2]; exact hlu⟩
    · rw [hk] at hk'; cases hk')
  have hmeas : Measurable fun x : Fin cs.length → ℝ => mu (List.ofFn x) := by
    have : (fun x : Fin cs.length → ℝ => mu (List.ofFn x)) = fun x => (cs.map fun hp => stTerm (naturalOf cs (List.ofFn x) hp.name)).sum := by
      funext x
      have hv := hmu (List.ofFn x) (by simp)
      rw [st_value _ fun _ h => h] at hv
      exact (Except.ok.inj hv).symm
    rw [this]
    exact st_measurable h.wf (fun hp hm => by obtain ⟨l, u, hk, _⟩ := hfloat hp hm; exact ⟨l, u, hk⟩) cs fun _ h => h
  have hval : ∀ t ∈ grid, ∀ r : List ℝ, r.length = cs.length → (fun ω => mu (atPoint cs selected t (List.ofFn (X 0 ω)))) = fun ω =>
      ((cs.filter fun hp => !decide (hp.name ∉ selected.map Hp.name)).map fun hp => stTerm (naturalOf cs (atPoint cs selected t r) hp.name)).sum
        + ((others cs selected).map fun hp => stTerm (naturalOf cs (List.ofFn (X 0 ω)) hp.name)).sum := by
    intro t ht r hr
    funext ω
    exact hadd t ht _ r (by simp) hr
  have hi : ∀ t ∈ grid, Integrable (fun ω => mu (atPoint cs selected t (List.ofFn (X 0 ω)))) P := by
    intro t ht
    rw [hval t ht (List.replicate cs.length 0) (by simp)]
    exact (integrable_const _).add e1
  filter_upwards [hX.law (selected := selected) hmeas hi] with ω hω
  refine ⟨_, fun n hn => ⟨(pdp_first h X hn ω).1, by simp⟩, ?_⟩
  intro p t ht r hr
  have hm := List.mem_of_getElem? ht
  refine ⟨_, h3 _, ?_⟩
  have hget : ∀ f : List ℝ → ℝ, (grid.map f).getD p 0 = f t := by
    intro f; rw [List.getD_eq_getElem?_getD, List.getElem?_map, ht]; rfl
  simp only [hget]
  have := hω t hm
  rw [hval t hm r hr, integral_add (integrable_const _) e1, integral_const, e2, ← hoff] at this
  simpa using this

/-! ### non-vacuity: uniform samples exist -/

/-- independent vectors of independent, uniformly distributed coordinates -/
noncomputable def Spec.uniformSamples (F : Nat) : Measure (ℕ → Fin F → ℝ) := Measure.infinitePi fun _ => Measure.pi fun _ => volume.restrict (Set.Icc (0 : ℝ) 1)

instance uniform_probability : IsProbabilityMeasure (volume.restrict (Set.Icc (0 : ℝ) 1)) := ⟨by simp⟩
instance uniformSamples_probability (F : Nat) : IsProbabilityMeasure (uniformSamples F) := by unfold uniformSamples; infer_instance

theorem uniformSamples_spec (F : Nat) : IsRandomSample (uniformSamples F) (fun i ω => ω i) ∧
    ∀ f, (uniformSamples F).map (fun ω => ω 0 f) = volume.restrict (Set.Icc (0 : ℝ) 1) := by
  have hmap : ∀ i, (uniformSamples F).map (fun ω => ω i) = Measure.pi fun _ => volume.restrict (Set.Icc (0 : ℝ) 1) := fun i =>
    (measurePreserving_eval_infinitePi (fun _ : ℕ => Measure.pi fun _ : Fin F => volume.restrict (Set.Icc (0 : ℝ) 1)) i).map_eq
  refine ⟨⟨fun i => measurable_pi_apply i, fun i j hij => ?_, fun i => by rw [hmap i, hmap 0]⟩, fun f => ?_⟩
  · exact (iIndepFun_infinitePi (P := fun _ : ℕ => Measure.pi fun _ : Fin F => volume.restrict (Set.Icc (0 : ℝ) 1)) (X := fun _ x => x)
      (fun _ => measurable_id)).indepFun hij
  · have h1 : (fun ω : ℕ → Fin F → ℝ => ω 0 f) = (fun x : Fin F → ℝ => x f) ∘ fun ω => ω 0 := rfl
    rw [h1, ← Measure.map_map (measurable_pi_apply f) (measurable_pi_apply 0), hmap 0]
    exact (measurePreserving_eval (fun _ : Fin F => volume.restrict (Set.Icc (0 : ℝ) 1)) f).map_eq

/-- StyblinskiTang in two dimensions, the first hyperparameter selected, three grid points -/
def stSpace : ConfigSpace ℝ := [⟨"x1", .float (-5) 5 false⟩, ⟨"x2", .float (-5) 5 false⟩]

noncomputable def stMean (r : List ℝ) : ℝ := (stSpace.map fun hp => stTerm (naturalOf stSpace r hp.name)).sum

theorem stSpace_wf : stSpace.WF := by simp [stSpace, ConfigSpace.WF]

theorem stSetting : PdpSetting stSpace (fun rows => .ok (rows.map stMean, rows.map fun _ => 0)) (.many [.name "x1"]) [⟨"x1", .float (-5) 5 false⟩] 3
    ([0, 1 / 2, 1].map fun v => [v]) stMean (fun _ => 0) where
  wf := stSpace_wf
  sel_eq := (C05_convert_many stSpace_wf _ _).2 (.cons ⟨by simp [stSpace], rfl⟩ .nil)
  mem := by simp [stSpace]
  ne := by simp
  distinct := by simp
  rowWise := fun _ _ _ => rfl
  grid_pos := by simp
  grid_eq := by
    rw [gridPoints, if_neg (by simp)]
    simp [tuples, linspace, swap01, List.range_succ]
    norm_num

example : ∃ (f : BlackboxFn ℝ) (offset : ℝ), styblinskiTangPdIntegral id stSpace [.hp ⟨"x2", .float (-5) 5 false⟩] = .ok (f, offset) ∧
    ∀ᵐ ω ∂(uniformSamples stSpace.length), ∃ y : ℕ → List ℝ,
      (∀ n, 1 ≤ n → yPdp stSpace (fun rows => .ok (rows.map stMean, rows.map fun _ => 0)) (.many [.name "x1"]) (firstSamples (fun i ω => ω i) n ω) 3 = .ok (y n)) ∧
      ∃ v, f.value (assignConfig f.cs (fun _ => 0)) = .ok v ∧ Tendsto (fun n => (y n).getD 1 0) atTop (𝓝 v) := by
  have hoth : others stSpace [⟨"x1", .float (-5) 5 false⟩] = [⟨"x2", .float (-5) 5 false⟩] := by simp [others, stSpace]
  obtain ⟨f, o, h1, h2⟩ := C129_limit (order := id) (fun _ => .refl _) stSetting (fun r _ => st_value _ fun _ h => h)
    (by rw [hoth]; simp)
    (by intro hp h; simp only [stSpace, List.mem_cons, List.not_mem_nil, or_false] at h; rcases h with rfl | rfl <;> exact ⟨-5, 5, rfl, by norm_num⟩)
    (uniformSamples_spec _).1 (uniformSamples_spec _).2
  rw [hoth] at h1
  refine ⟨f, o, h1, ?_⟩
  filter_upwards [h2] with ω hω
  obtain ⟨y, hy, hlim⟩ := hω
  obtain ⟨v, hv, hlim⟩ := hlim 1 [1 / 2] (by simp) [0, 1 / 2] (by simp [stSpace])
  refine ⟨y, fun n hn => (hy n hn).1, v, ?_, hlim⟩
  rw [← hv]
  have hcs : f.cs = [⟨"x1", .float (-5) 5 false⟩] := by
    have := pd_ok (order := id) stSpace_wf (items := [.hp ⟨"x2", .float (-5) 5 false⟩]) (sel := [⟨"x2", .float (-5) 5 false⟩]) (.cons rfl .nil) (by simp)
      (axes := [⟨"x2", -5, 5⟩]) (.cons ⟨by simp [Hp.numerical?], by simp [axisOf, Hp.numerical?]⟩ .nil)
    have this := h1.symm.trans this
    rw [(Prod.mk.inj (Except.ok.inj this)).1]
    simp [stSpace]
  congr 1
  rw [hcs]
  simp [assignConfig, naturalOf, atPoint, stSpace, naturalValue, interpolate]
  norm_num

/-- C128 for a surrogate with an interaction: it predicts `x₀ x₁` with deviation 1; at the grid point `x₀ = 1/2` its PDP converges to `1/4`, the variances to 1 -/
example : ∀ᵐ ω ∂(uniformSamples stSpace.length), ∃ y v : ℕ → List ℝ,
    (∀ n, 1 ≤ n → yPdp stSpace (fun rows => .ok (rows.map fun r => r.getD 0 0 * r.getD 1 0, rows.map fun _ => 1)) (.many [.name "x1"])
      (firstSamples (fun i ω => ω i) n ω) 3 = .ok (y n)) ∧
    Tendsto (fun n => (y n).getD 1 0) atTop (𝓝 (1 / 4)) ∧ Tendsto (fun n => (v n).getD 1 0) atTop (𝓝 1) := by
  have hset : PdpSetting stSpace (fun rows => .ok (rows.map fun r => r.getD 0 0 * r.getD 1 0, rows.map fun _ => 1)) (.many [.name "x1"])
      [⟨"x1", .float (-5) 5 false⟩] 3 ([0, 1 / 2, 1].map fun v => [v]) (fun r => r.getD 0 0 * r.getD 1 0) (fun _ => 1) :=
    { stSetting with rowWise := fun _ _ _ => rfl }
  obtain ⟨hr, hu⟩ := uniformSamples_spec stSpace.length
  have hof : ∀ x : Fin stSpace.length → ℝ, List.ofFn x = [x ⟨0, by simp [stSpace]⟩, x ⟨1, by simp [stSpace]⟩] := fun _ => rfl
  have hrep : ∀ (v : ℝ) (x : Fin stSpace.length → ℝ), atPoint stSpace [⟨"x1", .float (-5) 5 false⟩] [v] (List.ofFn x) = [v, x ⟨1, by simp [stSpace]⟩] := by
    intro v x; rw [hof]; simp [atPoint, stSpace]
  have hint : Integrable (fun ω : ℕ → Fin stSpace.length → ℝ => ω 0 ⟨1, by simp [stSpace]⟩) (uniformSamples stSpace.length) ∧ ∫ ω : ℕ → Fin stSpace.length → ℝ, ω 0 ⟨1, by simp [stSpace]⟩ ∂(uniformSamples stSpace.length) = 1 / 2 := by
    have hm : Measurable fun ω : ℕ → Fin stSpace.length → ℝ => ω 0 ⟨1, by simp [stSpace]⟩ := by fun_prop
    have h1 : Integrable (fun x : ℝ => x) ((uniformSamples stSpace.length).map fun ω => ω 0 ⟨1, by simp [stSpace]⟩) := by
      rw [hu]; exact continuous_id.continuousOn.integrableOn_compact isCompact_Icc
    refine ⟨h1.comp_measurable hm, ?_⟩
    rw [← integral_map (φ := fun ω : ℕ → Fin stSpace.length → ℝ => ω 0 ⟨1, by simp [stSpace]⟩) (f := fun x : ℝ => x) hm.aemeasurable (by fun_prop), hu, integral_Icc_eq_integral_Ioc,
      ← intervalIntegral.integral_of_le zero_le_one, integral_id]
    norm_num
  have hmeas : Measurable fun x : Fin stSpace.length → ℝ => (List.ofFn x).getD 0 0 * (List.ofFn x).getD 1 0 := by
    have : (fun x : Fin stSpace.length → ℝ => (List.ofFn x).getD 0 0 * (List.ofFn x).getD 1 0) = fun x =>
        x ⟨0, by simp [stSpace]⟩ * x ⟨1, by simp [stSpace]⟩ := by funext x; rw [hof]; rfl
    rw [this]; fun_prop
  have := C128_consistent (P := uniformSamples stSpace.length) hset (X := fun i ω => ω i) hr
    hmeas
    measurable_const
    (fun t ht => by
      obtain ⟨v, _, rfl⟩ := List.mem_map.1 ht
      simp only [hrep]
      simpa using hint.1.const_mul v)
    (fun t ht => by simp)
  filter_upwards [this] with ω hω
  obtain ⟨y, v, h1, h2⟩ := hω
  obtain ⟨h3, h4⟩ := h2 1 [1 / 2] (by simp)
  refine ⟨y, v, fun n hn => (h1 n hn).1, ?_, ?_⟩
  · convert h3 using 2
    simp only [hrep]
    simp [integral_const_mul, hint.2]
    norm_num
  · simpa using h4

end PyPDP
