/-
C127: partial dependence on a surrogate whose mean is a sum.
-/
import Verif.Props.Pdp
import Verif.Spec.Dependence

namespace PyPDP
open Spec
variable {K : Type}

theorem atPoint_length [Zero K] {space : ConfigSpace K} {selected : List (Hp K)} {t r : List K} (h : r.length = space.length) :
    (atPoint space selected t r).length = space.length := by simp [atPoint, h]

theorem feature_unique {space : ConfigSpace K} (hwf : space.WF) {hp : Hp K} {f i : Nat} (hf : IsFeature space hp f) (hi : IsFeature space hp i) :
    f = i := by
  obtain ⟨h1, h1a, h1b⟩ := hf
  obtain ⟨h2, h2a, h2b⟩ := hi
  have hnm := hwf
  rw [ConfigSpace.WF, List.nodup_iff_getElem?_ne_getElem?] at hnm
  by_contra hne
  have e : (space.map Hp.name)[f]? = (space.map Hp.name)[i]? := by
    rw [List.getElem?_map, List.getElem?_map, h1a, h2a]; simp [h1b, h2b]
  have hl1 : f < space.length := (List.getElem?_eq_some_iff.1 h1a).1
  have hl2 : i < space.length := (List.getElem?_eq_some_iff.1 h2a).1
  rcases Nat.lt_or_gt_of_ne hne with hlt | hlt
  · exact hnm f i hlt (by simpa using hl2) e
  · exact hnm i f hlt (by simpa using hl1) e.symm

/-- a selected feature of `atPoint` -/
theorem atPoint_selected [Zero K] {space : ConfigSpace K} {selected : List (Hp K)} (hnd : (selected.map Hp.name).Nodup) {t r : List K}
    (hr : r.length = space.length) (ht : t.length = selected.length) {j f : Nat} {hp : Hp K} (hj : selected[j]? = some hp)
    (hf : IsFeature space hp f) : (atPoint space selected t r)[f]? = t[j]? := by
  obtain ⟨h, h1, h2⟩ := hf
  have hl := (List.getElem?_eq_some_iff.1 h1).1
  have hjl := (List.getElem?_eq_some_iff.1 hj).1
  rw [atPoint, List.getElem?_zipWith, h1, List.getElem?_eq_getElem (by omega : f < r.length)]
  have hfind : selected.findIdx? (fun s => s.name == h.name) = some j := by
    rw [List.findIdx?_eq_some_iff_getElem]
    refine ⟨hjl, ?_, ?_⟩
    · rw [List.getElem?_eq_getElem hjl] at hj
      rw [Option.some.inj hj, h2]; simp
    · intro k hk hkj
      have : (selected.map Hp.name)[k]'(by simp; omega) = (selected.map Hp.name)[j]'(by simpa using hjl) := by
        rw [List.getElem?_eq_getElem hjl] at hj
        simp only [List.getElem_map]
        rw [Option.some.inj hj, ← h2]
        exact beq_iff_eq.1 hkj
      have := (List.Nodup.getElem_inj_iff hnd).1 this
      omega
  simp only [hfind]
  rw [List.getElem?_eq_getElem (by omega : j < t.length), List.getD_eq_getElem?_getD, List.getElem?_eq_getElem (by omega : j < t.length)]
  rfl

/-- any other feature of `atPoint` -/
theorem atPoint_other [Zero K] {space : ConfigSpace K} {selected : List (Hp K)} {t r : List K} (hr : r.length = space.length) {f : Nat}
    (hf : ∀ hp ∈ selected, ¬ IsFeature space hp f) : (atPoint space selected t r)[f]? = r[f]? := by
  rcases Nat.lt_or_ge f space.length with hl | hl
  · rw [atPoint, List.getElem?_zipWith, List.getElem?_eq_getElem hl, List.getElem?_eq_getElem (by omega : f < r.length)]
    have hfind : selected.findIdx? (fun s => s.name == (space[f]).name) = none := by
      rw [List.findIdx?_eq_none_iff]
      intro s hs
      rw [beq_eq_false_iff_ne]
      intro e
      exact hf s hs ⟨space[f], List.getElem?_eq_getElem hl, e.symm⟩
    simp only [hfind]
  · rw [List.getElem?_eq_none (by simp [atPoint]; omega), List.getElem?_eq_none (by omega)]

/-- the row of the model is `atPoint` -/
theorem assignRow_atPoint [Zero K] {c : IceCfg K} (hc : ValidCfg c) {idx : List Nat} (hidx : getSelectedIdx c.selected c.space = .ok idx)
    {t r : List K} (hr : r.length = c.space.length) (ht : t.length = c.selected.length) :
    assignRow idx t r = atPoint c.space c.selected t r := by
  obtain ⟨idx', hidx', hnd, hfeat⟩ := hc.idx
  obtain rfl : idx' = idx := Except.ok.inj (hidx'.symm.trans hidx)
  refine List.ext_getElem? fun f => ?_
  by_cases hsel : ∃ hp ∈ c.selected, IsFeature c.space hp f
  · obtain ⟨hp, hmem, hf⟩ := hsel
    obtain ⟨j, hj⟩ := List.mem_iff_getElem?.1 hmem
    have hjl := (List.getElem?_eq_some_iff.1 hj).1
    have hlen := hfeat.length_eq
    have hfi : IsFeature c.space hp (idx'[j]'(by omega)) := by
      have := hfeat.get hjl (by omega)
      simp only [List.get_eq_getElem] at this
      rw [List.getElem?_eq_getElem hjl] at hj
      rw [← Option.some.inj hj]
      exact this
    have hfe := feature_unique hc.wf hf hfi
    rw [atPoint_selected hc.sel_distinct hr ht hj hf, List.getElem?_eq_getElem (by omega : j < t.length)]
    refine assignRow_selected hnd (by rw [List.getElem?_eq_getElem (by omega : j < idx'.length), hfe]) (List.getElem?_eq_getElem _) ?_
    rw [hr]; exact (List.getElem?_eq_some_iff.1 hf.choose_spec.1).1
  · have hsel' : ∀ hp ∈ c.selected, ¬ IsFeature c.space hp f := fun hp h1 h2 => hsel ⟨hp, h1, h2⟩
    rw [atPoint_other hr hsel']
    apply assignRow_other
    intro hmem
    obtain ⟨j, hj⟩ := List.mem_iff_getElem?.1 hmem
    have hjl := (List.getElem?_eq_some_iff.1 hj).1
    have hlen := hfeat.length_eq
    have := hfeat.get (i := j) (by omega) hjl
    simp only [List.get_eq_getElem] at this
    rw [List.getElem?_eq_getElem hjl] at hj
    rw [Option.some.inj hj] at this
    exact hsel' _ (List.getElem_mem _) this

theorem gridPoints_ok [Field K] {k g : Nat} {grid : List (List K)} (h : gridPoints k g = .ok grid) :
    grid.length = g ^ k ∧ ∀ t ∈ grid, t.length = k := by
  unfold gridPoints at h
  split at h
  · cases h
  · obtain rfl := Except.ok.inj h
    refine ⟨by rw [List.length_map, tuples_length, linspace_length], ?_⟩
    intro t ht
    obtain ⟨t', ht', rfl⟩ := List.mem_map.1 ht
    rw [(swap01_perm t').length_eq]
    exact (mem_tuples.1 ht').1

theorem meanRows_map [Field K] {α β : Type} (l : List α) (hl : l ≠ []) (m : List β) (f : α → β → K) :
    meanRows (l.map fun a => m.map fun b => f a b) = .ok (m.map fun b => (l.map fun a => f a b).sum / (l.length : K)) := by
  obtain ⟨a, as, rfl⟩ := List.exists_cons_of_ne_nil hl
  unfold meanRows mean0
  rw [if_neg (by simp)]
  congr 1
  refine List.ext_getElem (by simp) fun p h1 h2 => ?_
  have hp : p < m.length := by simpa using h2
  simp only [List.getElem_map, List.getElem_range, List.map_map, List.length_map]
  congr 2
  refine List.map_congr_left fun x _ => ?_
  simp [hp]

/-- **the PDP in closed form**: what a user reads from a new PDP object of a surrogate that predicts row by row -/
theorem pdp_values [Field K] {space : ConfigSpace K} (hwf : space.WF) {predict : Predict K} {sel : Selection K} {selected : List (Hp K)}
    (hsel : convertHyperparameters sel space = .ok selected) (hmem : ∀ hp ∈ selected, hp ∈ space) (hne : selected ≠ [])
    (hnd : (selected.map Hp.name).Nodup) {mu sd : List K → K} (hp : RowWise space.length predict mu sd) {samples : List (List K)}
    (hn : samples ≠ []) (hrows : ∀ r ∈ samples, r.length = space.length) {g : Nat} (hg : g ≠ 0) {grid : List (List K)}
    (hgr : gridPoints selected.length g = .ok grid) :
    yPdp space predict sel samples g = .ok (grid.map fun t => (samples.map fun r => mu (atPoint space selected t r)).sum / (samples.length : K)) ∧
    vPdp space predict sel samples g = .ok (grid.map fun t => (samples.map fun r => sd (atPoint space selected t r) ^ 2).sum / (samples.length : K)) := by
  obtain ⟨c, hc⟩ : ∃ c : IceCfg K, c = ⟨space, selected, samples, samples.length, g, g ^ selected.length, false, predict⟩ := ⟨_, rfl⟩
  have hinit : algorithmInit space predict sel samples g = .ok c := by
    unfold algorithmInit
    rw [hsel, hc]; rfl
  have hv : ValidCfg c := by subst hc; exact ⟨hwf, hmem, hnd, hne, hrows, rfl, rfl⟩
  obtain ⟨hgl, hgk⟩ := gridPoints_ok hgr
  obtain ⟨idx, hidx, _⟩ := hv.idx
  have hcalc := iceCalc_ok hv (mu := mu) (sd := sd) (by subst hc; exact hp) (by subst hc; exact hn) (grid := grid) (by subst hc; exact hgl)
    (by subst hc; exact pow_ne_zero _ hg) hidx
  have hx : ∀ q : List K → K, (iceX idx c.samples grid).map (fun m => m.map q) = samples.map fun r => grid.map fun t => q (atPoint space selected t r) := by
    intro q
    rw [iceX, List.map_map]
    have : c.samples = samples := by rw [hc]
    rw [this]
    refine List.map_congr_left fun r hr => ?_
    simp only [Function.comp, List.map_map]
    refine List.map_congr_left fun t ht => ?_
    simp only [Function.comp]
    rw [assignRow_atPoint hv hidx (by rw [hrows r hr, hc]) (by rw [hgk t ht, hc])]
    rw [hc]
  have hcen : c.centered = false := by rw [hc]
  obtain ⟨s, hs⟩ : ∃ s : PdpState K, s = ⟨c, none, none, none, none⟩ := ⟨_, rfl⟩
  have hpi : pdpInit space predict sel samples g = .ok s := by rw [pdpInit, hinit, hs]; rfl
  have hgives : Gives (iceInit c) ⟨iceX idx c.samples grid, (iceX idx c.samples grid).map (·.map mu),
      (iceX idx c.samples grid).map (·.map fun r => sd r ^ 2)⟩ := by
    refine Or.inr ⟨fresh_init c, ?_⟩
    rw [calcNow_init c (g := grid) (by rw [hc]; exact hgr), hcalc, hcen]
    rfl
  obtain ⟨_, h2, h3⟩ := pdp_reads (s := s) (by rw [hs]; exact ⟨rfl, rfl, rfl⟩) (i := iceInit c)
    (by rw [pdpIce_own (by rw [hs])]; rw [hs, hc]) hgives
  constructor
  · rw [yPdp, hpi, Py.ok_bind, h2]
    dsimp only
    rw [hx mu, meanRows_map _ hn]
  · rw [vPdp, hpi, Py.ok_bind, h3]
    dsimp only
    rw [hx (fun r => sd r ^ 2), meanRows_map _ hn]

/-! ### C127 -/

/-- the mean of the surrogate at row `atPoint t r`, for a sum -/
theorem additive_atPoint [Field K] {space : ConfigSpace K} {selected : List (Hp K)} (hnd : (selected.map Hp.name).Nodup) {mu u w : List K → K}
    (hadd : ∀ r : List K, r.length = space.length → mu r = u r + w r) (hu : ReadsSelected space selected u) (hw : ReadsOthers space selected w)
    {t r r' : List K} (hr : r.length = space.length) (hr' : r'.length = space.length) (ht : t.length = selected.length) :
    mu (atPoint space selected t r) = u (atPoint space selected t r') + w r := by
  rw [hadd _ (atPoint_length hr), hu _ (atPoint space selected t r') (atPoint_length hr) (atPoint_length hr') ?_,
    hw _ r (atPoint_length hr) hr fun f hf => atPoint_other hr hf]
  intro hp hmem f hf
  obtain ⟨j, hj⟩ := List.mem_iff_getElem?.1 hmem
  rw [atPoint_selected hnd hr ht hj hf, atPoint_selected hnd hr' ht hj hf]

theorem iceCalc_atPoint [Field K] {c : IceCfg K} (hc : ValidCfg c) {mu sd : List K → K} (hp : RowWise c.space.length c.predict mu sd)
    (hn : c.samples ≠ []) {grid : List (List K)} (hg : grid.length = c.numGrid) (hgk : ∀ t ∈ grid, t.length = c.selected.length)
    (hP : c.numGrid ≠ 0) {d : IceData K} (h : iceCalc c grid = .ok d) {s : Nat} {r : List K} (hr : c.samples[s]? = some r) (p : Nat) :
    at2 d.y s p = (grid[p]?).map fun t => if c.centered
      then mu (atPoint c.space c.selected t r) - mu (atPoint c.space c.selected (grid.getD 0 []) r)
      else mu (atPoint c.space c.selected t r) := by
  obtain ⟨idx, hidx, _⟩ := hc.idx
  rw [iceCalc_ok hc hp hn hg hP hidx] at h
  obtain rfl := Except.ok.inj h
  have hl : ∀ t ∈ grid, assignRow idx t r = atPoint c.space c.selected t r := fun t ht =>
    assignRow_atPoint hc hidx (hc.rows r (List.mem_of_getElem? hr)) (hgk t ht)
  obtain ⟨g0, gs, rfl⟩ := List.exists_cons_of_ne_nil (l := grid) (by rintro rfl; exact hP (by simpa using hg.symm))
  simp only [at2, iceX, List.map_map, List.getElem?_map, hr, Option.map_some, Option.bind_some, Function.comp]
  cases hq : (g0 :: gs)[p]? with
  | none => rfl
  | some t =>
    simp only [Option.map_some, List.map_cons, List.getD_cons_zero, Function.comp_apply]
    rw [hl t (List.mem_of_getElem? hq), hl g0 (by simp)]

/-- **C127** If the surrogate's mean is a function of the selected hyperparameters plus a function of the others, all ICE curves have the same differences between
any two grid points, and with `centered = True` they all coincide. -/
theorem C127_curves [Field K] {c : IceCfg K} (hc : ValidCfg c) {mu sd u w : List K → K} (hp : RowWise c.space.length c.predict mu sd)
    (hadd : ∀ r : List K, r.length = c.space.length → mu r = u r + w r) (hu : ReadsSelected c.space c.selected u)
    (hw : ReadsOthers c.space c.selected w) (hn : c.samples ≠ []) {grid : List (List K)} (hgr : gridPoints c.selected.length c.perAxis = .ok grid)
    (hP : c.perAxis ≠ 0) {d : IceData K} (h : iceCalc c grid = .ok d) {s s' : Nat} (hs : s < c.samples.length) (hs' : s' < c.samples.length) :
    (c.centered = false → ∀ p q a b a' b', at2 d.y s p = some a → at2 d.y s q = some b → at2 d.y s' p = some a' → at2 d.y s' q = some b' →
      a - b = a' - b') ∧
    (c.centered = true → ∀ p, at2 d.y s p = at2 d.y s' p) := by
  obtain ⟨hgl, hgk⟩ := gridPoints_ok hgr
  have hg : grid.length = c.numGrid := by rw [hgl, hc.num_grid]
  have hP' : c.numGrid ≠ 0 := by rw [hc.num_grid]; exact pow_ne_zero _ hP
  have hr := hc.rows _ (List.getElem_mem hs)
  have hr' := hc.rows _ (List.getElem_mem hs')
  have key := fun p => iceCalc_atPoint hc hp hn hg hgk hP' h (List.getElem?_eq_getElem hs) p
  have key' := fun p => iceCalc_atPoint hc hp hn hg hgk hP' h (List.getElem?_eq_getElem hs') p
  constructor
  · intro hcen p q a b a' b' ha hb ha' hb'
    rw [key, hcen] at ha hb
    rw [key', hcen] at ha' hb'
    obtain ⟨t, ht, rfl⟩ := Option.map_eq_some_iff.1 ha
    obtain ⟨v, hv, rfl⟩ := Option.map_eq_some_iff.1 hb
    rw [ht] at ha'
    rw [hv] at hb'
    obtain rfl := Option.some.inj ha'
    obtain rfl := Option.some.inj hb'
    have h1 := hgk t (List.mem_of_getElem? ht)
    have h2 := hgk v (List.mem_of_getElem? hv)
    simp only [Bool.false_eq_true, if_false]
    rw [additive_atPoint hc.sel_distinct hadd hu hw hr hr h1, additive_atPoint hc.sel_distinct hadd hu hw hr hr h2,
      additive_atPoint hc.sel_distinct hadd hu hw hr' hr h1, additive_atPoint hc.sel_distinct hadd hu hw hr' hr h2]
    ring
  · intro hcen p
    rw [key, key', hcen]
    cases hq : grid[p]? with
    | none => rfl
    | some t =>
      have h1 := hgk t (List.mem_of_getElem? hq)
      have h0 : (grid.getD 0 []).length = c.selected.length := by
        have : 0 < grid.length := by omega
        rw [List.getD_eq_getElem?_getD, List.getElem?_eq_getElem this]
        exact hgk _ (List.getElem_mem _)
      simp only [Option.map_some, if_true]
      rw [additive_atPoint hc.sel_distinct hadd hu hw hr hr h1, additive_atPoint hc.sel_distinct hadd hu hw hr hr h0,
        additive_atPoint hc.sel_distinct hadd hu hw hr' hr h1, additive_atPoint hc.sel_distinct hadd hu hw hr' hr h0]
      congr 1
      ring

/-- **C127** and the PDP is the function of the selected hyperparameters up to one constant, the average of the other function over the samples. -/
theorem C127_pdp [Field K] [CharZero K] {space : ConfigSpace K} (hwf : space.WF) {predict : Predict K} {sel : Selection K} {selected : List (Hp K)}
    (hsel : convertHyperparameters sel space = .ok selected) (hmem : ∀ hp ∈ selected, hp ∈ space) (hne : selected ≠ [])
    (hnd : (selected.map Hp.name).Nodup) {mu sd u w : List K → K} (hp : RowWise space.length predict mu sd)
    (hadd : ∀ r : List K, r.length = space.length → mu r = u r + w r) (hu : ReadsSelected space selected u)
    (hw : ReadsOthers space selected w) {samples : List (List K)}
    (hn : samples ≠ []) (hrows : ∀ r ∈ samples, r.length = space.length) {g : Nat} (hg : g ≠ 0) {grid : List (List K)}
    (hgr : gridPoints selected.length g = .ok grid) :
    ∃ y, yPdp space predict sel samples g = .ok y ∧ y.length = grid.length ∧
      ∀ (p : Nat) (t : List K), grid[p]? = some t → ∀ r : List K, r.length = space.length →
        y[p]? = some (u (atPoint space selected t r) + (samples.map w).sum / (samples.length : K)) := by
  refine ⟨_, (pdp_values hwf hsel hmem hne hnd hp hn hrows hg hgr).1, by simp, ?_⟩
  intro p t ht r hr
  rw [List.getElem?_map, ht, Option.map_some]
  have h1 := (gridPoints_ok hgr).2 t (List.mem_of_getElem? ht)
  have : samples.map (fun r' => mu (atPoint space selected t r')) = samples.map fun r' => u (atPoint space selected t r) + w r' :=
    List.map_congr_left fun r' hr' => additive_atPoint hnd hadd hu hw (hrows r' hr') hr h1
  have hn0 : (samples.length : K) ≠ 0 := by exact_mod_cast (List.length_pos_iff.2 hn).ne'
  rw [this, List.sum_map_add, List.map_const', List.sum_replicate, nsmul_eq_mul]
  congr 1
  field_simp

/-- non-vacuity: the surrogate of `exIce` predicts `x₀ + 2 x₁`, a sum -/
example : (∀ r : List ℚ, r.length = 2 → r.getD 0 0 + 2 * r.getD 1 0 = (fun r : List ℚ => 2 * r.getD 1 0) r + (fun r : List ℚ => r.getD 0 0) r) ∧
    ReadsSelected (exIce true).space (exIce true).selected (fun r => 2 * r.getD 1 0) ∧
    ReadsOthers (exIce true).space (exIce true).selected (fun r => r.getD 0 0) ∧
    iceCalc (exIce true) [[0], [1]] = .ok ⟨[[[1/4, 0], [1/4, 1]], [[1/2, 0], [1/2, 1]]], [[0, 2], [0, 2]], [[0, 1], [0, 1]]⟩ := by
  refine ⟨fun r _ => add_comm _ _, ?_, ?_, by decide +kernel⟩
  · intro r r' _ _ h
    have := h ⟨"x2", .float 0 1 false⟩ (by simp [exIce]) 1 ⟨⟨"x2", .float 0 1 false⟩, by simp [exIce], rfl⟩
    simp only [List.getD_eq_getElem?_getD, this]
  · intro r r' _ _ h
    have := h 0 (by
      rintro hp hh ⟨q, h1, h2⟩
      simp only [exIce, List.mem_singleton] at hh
      subst hh
      simp only [exIce, List.getElem?_cons_zero, Option.some.injEq] at h1
      subst h1
      simp at h2)
    simp only [List.getD_eq_getElem?_getD, this]

/-- with an interaction `x₀ x₁` the centered curves differ -/
example : iceCalc { exIce true with predict := fun rows => .ok (rows.map fun r => r.getD 0 0 * r.getD 1 0, rows.map fun _ => 0) } [[0], [1]]
    = .ok ⟨[[[1/4, 0], [1/4, 1]], [[1/2, 0], [1/2, 1]]], [[0, 1/4], [0, 1/2]], [[0, 0], [0, 0]]⟩ := by decide +kernel

end PyPDP
