/-
C153: ICE curves and PDPs of one surrogate agree with each other: over other grids, over fewer selected hyperparameters, and with the
predictions for the samples themselves.
-/
import Verif.Props.Inherit

namespace PyPDP
open Spec
variable {K : Type}

/-- setting two groups of hyperparameters at once or one after the other is the same -/
theorem atPoint_append [Zero K] {space : ConfigSpace K} {a b : List (Hp K)} (hnd : ((a ++ b).map Hp.name).Nodup) {s c r : List K}
    (hs : s.length = a.length) (hc : c.length = b.length) (hr : r.length = space.length) :
    atPoint space (a ++ b) (s ++ c) r = atPoint space a s (atPoint space b c r) := by
  have hb : (b.map Hp.name).Nodup := by rw [List.map_append] at hnd; exact (List.nodup_append.1 hnd).2.1
  have ha : (a.map Hp.name).Nodup := by rw [List.map_append] at hnd; exact (List.nodup_append.1 hnd).1
  have hl : (s ++ c).length = (a ++ b).length := by simp [hs, hc]
  have hr' := atPoint_length (selected := b) (t := c) hr
  refine List.ext_getElem? fun f => ?_
  by_cases h1 : ∃ hp ∈ a, IsFeature space hp f
  · obtain ⟨hp, hm, hf⟩ := h1
    obtain ⟨j, hj⟩ := List.mem_iff_getElem?.1 hm
    have hjl := (List.getElem?_eq_some_iff.1 hj).1
    rw [atPoint_selected hnd hr hl (j := j) (by rw [List.getElem?_append_left hjl, hj]) hf,
      atPoint_selected ha hr' hs hj hf, List.getElem?_append_left (by omega)]
  · have h1' : ∀ hp ∈ a, ¬ IsFeature space hp f := fun hp hm hf => h1 ⟨hp, hm, hf⟩
    rw [atPoint_other hr' h1']
    by_cases h2 : ∃ hp ∈ b, IsFeature space hp f
    · obtain ⟨hp, hm, hf⟩ := h2
      obtain ⟨j, hj⟩ := List.mem_iff_getElem?.1 hm
      rw [atPoint_selected hnd hr hl (j := a.length + j) (by rw [List.getElem?_append_right (by omega)]; simpa using hj) hf,
        atPoint_selected hb hr hc hj hf, List.getElem?_append_right (by omega)]
      congr 1; omega
    · rw [atPoint_other hr fun hp hm hf => h2 ⟨hp, hm, hf⟩, atPoint_other hr]
      intro hp hm hf
      rcases List.mem_append.1 hm with hm | hm
      · exact h1 ⟨hp, hm, hf⟩
      · exact h2 ⟨hp, hm, hf⟩

/-- **C153** of two grids over the same hyperparameters: PDP, variances and every ICE curve have the same values wherever the grids share a
point; and the coarser grid is a part of the finer one if its number of intervals divides that of the finer one. -/
theorem C153_grids [Field K] [LinearOrder K] [IsStrictOrderedRing K] {space : ConfigSpace K} {sel : Selection K} {selected : List (Hp K)}
    {samples : List (List K)} {g g' : Nat} {grid grid' : List (List K)} (h : DependenceInput space sel selected samples g grid)
    (h' : DependenceInput space sel selected samples g' grid') {p : Predict K} {mu sd : List K → K} (hp : RowWise space.length p mu sd) :
    ∃ y y' v v' ys ys', yPdp space p sel samples g = .ok y ∧ yPdp space p sel samples g' = .ok y' ∧ vPdp space p sel samples g = .ok v ∧
      vPdp space p sel samples g' = .ok v' ∧ yIce space p sel samples g false = .ok ys ∧ yIce space p sel samples g' false = .ok ys' ∧
      (∀ (i j : Nat) (t : List K), grid[i]? = some t → grid'[j]? = some t → y[i]? = y'[j]? ∧ v[i]? = v'[j]? ∧ ∀ k, at2 ys k i = at2 ys' k j) ∧
      ((g = 1 ∨ 1 < g' ∧ (g - 1) ∣ (g' - 1)) → ∀ t ∈ grid, t ∈ grid') := by
  refine ⟨_, _, _, _, _, _, h.pdp hp, h'.pdp hp,
    (pdp_values h.wf h.sel_eq h.mem h.ne h.distinct hp h.samples_ne h.rows h.grid_pos h.grid_eq).2,
    (pdp_values h.wf h.sel_eq h.mem h.ne h.distinct hp h.samples_ne h.rows h'.grid_pos h'.grid_eq).2,
    ice_values h hp false, ice_values h' hp false, ?_, ?_⟩
  · intro i j t hi hj
    refine ⟨?_, ?_, fun k => ?_⟩
    · simp only [List.getElem?_map, hi, hj, Option.map_some]
    · simp only [List.getElem?_map, hi, hj, Option.map_some]
    · simp only [at2, List.getElem?_map]
      cases hk : samples[k]? with
      | none => rfl
      | some r => simp [hi, hj]
  · rintro hgg t ht
    obtain ⟨hl, hv⟩ := (mem_gridPoints h.grid_eq).1 ht
    refine (mem_gridPoints h'.grid_eq).2 ⟨hl, fun v hvt => ?_⟩
    obtain ⟨i, hi, e⟩ := mem_linspace01.1 (hv v hvt)
    have hg := h.grid_pos
    have hg' := h'.grid_pos
    refine mem_linspace01.2 ?_
    by_cases h1 : g = 1
    · rw [if_pos h1] at e
      exact ⟨0, by omega, by rw [e]; split <;> simp⟩
    · rw [if_neg h1] at e
      obtain ⟨h2, m, hm⟩ := hgg.resolve_left h1
      have hm0 : m ≠ 0 := by rintro rfl; omega
      have hle : i * m ≤ (g - 1) * m := Nat.mul_le_mul_right m (by omega)
      refine ⟨i * m, by omega, ?_⟩
      rw [if_neg (by omega), e]
      have e1 : ((g : K) - 1) = ((g - 1 : Nat) : K) := by rw [Nat.cast_sub (by omega), Nat.cast_one]
      have e2 : ((g' : K) - 1) = ((g - 1 : Nat) : K) * m := by
        rw [← Nat.cast_mul, ← hm, Nat.cast_sub (by omega), Nat.cast_one]
      have n1 : ((g - 1 : Nat) : K) ≠ 0 := by exact_mod_cast (by omega : g - 1 ≠ 0)
      have n2 : (m : K) ≠ 0 := by exact_mod_cast hm0
      rw [e1, e2, Nat.cast_mul]
      field_simp

/-- **C153** fewer hyperparameters: along a line (or plane) of its grid on which the hyperparameters `fixed` have the values `c`, the ICE curve of a
sample is the curve, over the remaining hyperparameters, of the sample moved to that line; likewise PDP and variances. Every grid point of
the remaining hyperparameters is on every such line of the grid. -/
theorem C153_fewer [Field K] {space : ConfigSpace K} {sel sel' : Selection K} {selected selected' fixed : List (Hp K)}
    {samples : List (List K)} {g : Nat} {grid grid' : List (List K)} (h : DependenceInput space sel selected samples g grid)
    (hsel' : convertHyperparameters sel' space = .ok selected') (hne : selected' ≠ []) (hperm : selected.Perm (selected' ++ fixed))
    (hgrid' : gridPoints selected'.length g = .ok grid')
    {c : List K} (hc : c.length = fixed.length) {p : Predict K} {mu sd : List K → K} (hp : RowWise space.length p mu sd) :
    ∃ y y' v v' ys ys', yPdp space p sel samples g = .ok y ∧ yPdp space p sel' (samples.map (atPoint space fixed c)) g = .ok y' ∧
      vPdp space p sel samples g = .ok v ∧ vPdp space p sel' (samples.map (atPoint space fixed c)) g = .ok v' ∧
      yIce space p sel samples g false = .ok ys ∧ yIce space p sel' (samples.map (atPoint space fixed c)) g false = .ok ys' ∧
      (∀ (i j : Nat) (s t : List K), grid[i]? = some s → grid'[j]? = some t → SamePoint selected (selected' ++ fixed) s (t ++ c) →
        y[i]? = y'[j]? ∧ v[i]? = v'[j]? ∧ ∀ k, at2 ys k i = at2 ys' k j) ∧
      ((∀ a ∈ c, a ∈ linspace (0 : K) 1 g) → ∀ t ∈ grid', ∃ s ∈ grid, SamePoint selected (selected' ++ fixed) s (t ++ c)) := by
  have hnd2 : ((selected' ++ fixed).map Hp.name).Nodup := (hperm.map Hp.name).nodup_iff.1 h.distinct
  have hnd' : (selected'.map Hp.name).Nodup := by rw [List.map_append] at hnd2; exact (List.nodup_append.1 hnd2).1
  have h' : DependenceInput space sel' selected' (samples.map (atPoint space fixed c)) g grid' :=
    ⟨h.wf, hsel', fun hp hm => h.mem hp (hperm.mem_iff.2 (List.mem_append_left _ hm)), hne, hnd', by simpa using h.samples_ne,
      fun r hr => by obtain ⟨q, hq, rfl⟩ := List.mem_map.1 hr; exact atPoint_length (h.rows q hq), h.grid_pos, hgrid'⟩
  have hlen := (gridPoints_ok h.grid_eq).2
  have hlen' := (gridPoints_ok hgrid').2
  refine ⟨_, _, _, _, _, _, h.pdp hp, h'.pdp hp,
    (pdp_values h.wf h.sel_eq h.mem h.ne h.distinct hp h.samples_ne h.rows h.grid_pos h.grid_eq).2,
    (pdp_values h'.wf h'.sel_eq h'.mem h'.ne h'.distinct hp h'.samples_ne h'.rows h'.grid_pos hgrid').2,
    ice_values h hp false, ice_values h' hp false, ?_, ?_⟩
  · intro i j s t hi hj hst
    have hsl := hlen s (List.mem_of_getElem? hi)
    have htl := hlen' t (List.mem_of_getElem? hj)
    have e : ∀ r ∈ samples, atPoint space selected s r = atPoint space selected' t (atPoint space fixed c r) := fun r hr => by
      rw [atPoint_samePoint hperm h.distinct hsl (by simp [htl, hc]) (h.rows r hr) hst, atPoint_append hnd2 htl hc (h.rows r hr)]
    refine ⟨?_, ?_, fun k => ?_⟩
    · simp only [List.getElem?_map, hi, hj, Option.map_some, List.map_map, List.length_map]
      rw [List.map_congr_left fun r hr => congrArg mu (e r hr)]; rfl
    · simp only [List.getElem?_map, hi, hj, Option.map_some, List.map_map, List.length_map]
      rw [List.map_congr_left fun r hr => congrArg (fun q => sd q ^ 2) (e r hr)]; rfl
    · simp only [at2, List.getElem?_map]
      cases hk : samples[k]? with
      | none => rfl
      | some r => simp [hi, hj, e r (List.mem_of_getElem? hk)]
  · intro hcg t ht
    have hnd3 : (selected' ++ fixed).Nodup := List.Nodup.of_map _ hnd2
    obtain ⟨htl, htv⟩ := (mem_gridPoints hgrid').1 ht
    have htc : t ++ c ∈ grid := by
      refine (mem_gridPoints h.grid_eq).2 ⟨by rw [hperm.length_eq]; simp [htl, hc], fun v hv => ?_⟩
      rcases List.mem_append.1 hv with hv | hv
      · exact htv v hv
      · exact hcg v hv
    obtain ⟨s, hs, hsp⟩ := samePoint_exists hperm.symm hnd3 (by rw [← hperm.length_eq]; exact h.grid_eq) htc
    exact ⟨s, hs, fun k k' hp hk hk' => (hsp k' k hp hk' hk).symm⟩

/-- **C153** an ICE curve passes through its own sample: where the grid point agrees with the sample, the curve shows the surrogate's prediction for
the sample itself. -/
theorem C153_own_sample [Field K] {space : ConfigSpace K} {sel : Selection K} {selected : List (Hp K)}
    {samples : List (List K)} {g : Nat} {grid : List (List K)} (h : DependenceInput space sel selected samples g grid)
    {p : Predict K} {mu sd : List K → K} (hp : RowWise space.length p mu sd) :
    ∃ ys, yIce space p sel samples g false = .ok ys ∧
      ∀ (k i : Nat) (r t : List K), samples[k]? = some r → grid[i]? = some t →
        (∀ (j f : Nat) hp, selected[j]? = some hp → IsFeature space hp f → t[j]? = r[f]?) → at2 ys k i = some (mu r) := by
  refine ⟨_, ice_values h hp false, ?_⟩
  intro k i r t hk hi hown
  have hr := h.rows r (List.mem_of_getElem? hk)
  have e : atPoint space selected t r = r := by
    refine List.ext_getElem? fun f => ?_
    by_cases h1 : ∃ hp ∈ selected, IsFeature space hp f
    · obtain ⟨hp, hm, hf⟩ := h1
      obtain ⟨j, hj⟩ := List.mem_iff_getElem?.1 hm
      rw [atPoint_selected h.distinct hr ((gridPoints_ok h.grid_eq).2 t (List.mem_of_getElem? hi)) hj hf, hown j f hp hj hf]
    · exact atPoint_other hr fun hp hm hf => h1 ⟨hp, hm, hf⟩
  simp [at2, hk, hi, e]

/-- **C153** what a sample itself has for the selected hyperparameters does not matter: samples that agree in all other features have the same ICE
curves, PDP and variances. -/
theorem C153_own_values [Field K] {space : ConfigSpace K} {sel : Selection K} {selected : List (Hp K)}
    {samples samples' : List (List K)} {g : Nat} {grid : List (List K)} (h : DependenceInput space sel selected samples g grid)
    (hsame : List.Forall₂ (fun r r' : List K => r'.length = r.length ∧
      ∀ f, (∀ hp ∈ selected, ¬ IsFeature space hp f) → r[f]? = r'[f]?) samples samples')
    {p : Predict K} {mu sd : List K → K} (hp : RowWise space.length p mu sd) (centered : Bool) :
    yPdp space p sel samples' g = yPdp space p sel samples g ∧ vPdp space p sel samples' g = vPdp space p sel samples g ∧
      yIce space p sel samples' g centered = yIce space p sel samples g centered := by
  have key : List.Forall₂ (fun r r' : List K => r'.length = space.length ∧ ∀ t, atPoint space selected t r' = atPoint space selected t r)
      samples samples' := by
    have hrows := h.rows
    clear h
    induction hsame with
    | nil => exact .nil
    | cons hab hrest ih =>
      rename_i a b l l'
      have ha : a.length = space.length := hrows a (by simp)
      have hb : b.length = space.length := hab.1.trans ha
      refine .cons ⟨hb, fun t => List.ext_getElem? fun f => ?_⟩ (ih fun r hr => hrows r (by simp [hr]))
      by_cases hf : ∀ hp ∈ selected, ¬ IsFeature space hp f
      · rw [atPoint_other hb hf, atPoint_other ha hf, hab.2 f hf]
      · push Not at hf
        obtain ⟨hp, hm, q, h1, h2⟩ := hf
        have hfl := (List.getElem?_eq_some_iff.1 h1).1
        rw [atPoint, atPoint, List.getElem?_zipWith, List.getElem?_zipWith, h1, List.getElem?_eq_getElem (by omega : f < a.length),
          List.getElem?_eq_getElem (by omega : f < b.length)]
        cases hfi : selected.findIdx? (fun s => s.name == q.name) with
        | some j => simp [hfi]
        | none =>
          rw [List.findIdx?_eq_none_iff] at hfi
          have := hfi hp hm
          rw [beq_eq_false_iff_ne] at this
          exact absurd h2.symm this
  have hmap : ∀ {β : Type} (F : List K → β), (∀ r r' : List K, (∀ t, atPoint space selected t r' = atPoint space selected t r) → F r' = F r) →
      samples'.map F = samples.map F := fun F hF => by
    clear h hsame
    induction key with
    | nil => rfl
    | cons hab _ ih => rw [List.map_cons, List.map_cons, hF _ _ hab.2, ih]
  have hll : samples'.length = samples.length := key.length_eq.symm
  have h' : DependenceInput space sel selected samples' g grid :=
    ⟨h.wf, h.sel_eq, h.mem, h.ne, h.distinct, by rintro rfl; exact h.samples_ne (List.length_eq_zero_iff.1 hll.symm),
      fun r' hr' => by
        clear hmap hsame h hll
        induction key with
        | nil => cases hr'
        | cons hab _ ih =>
          rcases List.mem_cons.1 hr' with rfl | hr'
          · exact hab.1
          · exact ih hr', h.grid_pos, h.grid_eq⟩
  refine ⟨?_, ?_, ?_⟩
  · rw [h.pdp hp, h'.pdp hp, hll]
    congr 1
    exact List.map_congr_left fun t _ => by rw [hmap _ fun r r' e => by rw [e t]]
  · rw [(pdp_values h.wf h.sel_eq h.mem h.ne h.distinct hp h.samples_ne h.rows h.grid_pos h.grid_eq).2,
      (pdp_values h'.wf h'.sel_eq h'.mem h'.ne h'.distinct hp h'.samples_ne h'.rows h'.grid_pos h'.grid_eq).2, hll]
    congr 1
    exact List.map_congr_left fun t _ => by rw [hmap _ fun r r' e => by rw [e t]]
  · rw [ice_values h hp, ice_values h' hp]
    congr 1
    exact hmap _ fun r r' e => List.map_congr_left fun t _ => by rw [e t, e]

/-- **C153** if all hyperparameters are selected, ICE curves, PDP and variances are just the surrogate on the grid, whatever the samples. -/
theorem C153_all_selected [Field K] [CharZero K] {space : ConfigSpace K} {sel : Selection K} {selected : List (Hp K)}
    {samples : List (List K)} {g : Nat} {grid : List (List K)} (h : DependenceInput space sel selected samples g grid)
    (hall : ∀ q ∈ space, ∃ hp ∈ selected, hp.name = q.name) {p : Predict K} {mu sd : List K → K} (hp : RowWise space.length p mu sd) :
    ∃ y v ys, yPdp space p sel samples g = .ok y ∧ vPdp space p sel samples g = .ok v ∧ yIce space p sel samples g false = .ok ys ∧
      ∀ (i : Nat) (t x : List K), grid[i]? = some t → x.length = space.length →
        (∀ (j f : Nat) hp, selected[j]? = some hp → IsFeature space hp f → x[f]? = t[j]?) →
        y[i]? = some (mu x) ∧ v[i]? = some (sd x ^ 2) ∧ ∀ k < samples.length, at2 ys k i = some (mu x) := by
  refine ⟨_, _, _, h.pdp hp, (pdp_values h.wf h.sel_eq h.mem h.ne h.distinct hp h.samples_ne h.rows h.grid_pos h.grid_eq).2,
    ice_values h hp false, ?_⟩
  intro i t x hi hx hxt
  have e : ∀ r ∈ samples, atPoint space selected t r = x := fun r hrm => by
    have hr := h.rows r hrm
    refine List.ext_getElem? fun f => ?_
    rcases Nat.lt_or_ge f space.length with hf | hf
    · obtain ⟨hp', hm, hn⟩ := hall space[f] (List.getElem_mem hf)
      have hfe : IsFeature space hp' f := ⟨_, List.getElem?_eq_getElem hf, hn.symm⟩
      obtain ⟨j, hj⟩ := List.mem_iff_getElem?.1 hm
      rw [atPoint_selected h.distinct hr ((gridPoints_ok h.grid_eq).2 t (List.mem_of_getElem? hi)) hj hfe, hxt j f hp' hj hfe]
    · rw [List.getElem?_eq_none (by rw [atPoint_length hr]; exact hf), List.getElem?_eq_none (by omega)]
  have hn : (samples.length : K) ≠ 0 := by exact_mod_cast (List.length_pos_iff.2 h.samples_ne).ne'
  have hmean : ∀ q : List K → K, (samples.map fun r => q (atPoint space selected t r)).sum / (samples.length : K) = q x := fun q => by
    rw [List.map_congr_left fun r hr => congrArg q (e r hr), List.map_const', List.sum_replicate, nsmul_eq_mul]
    field_simp
  refine ⟨?_, ?_, fun k hk => ?_⟩
  · rw [List.getElem?_map, hi, Option.map_some, hmean mu]
  · rw [List.getElem?_map, hi, Option.map_some, hmean fun q => sd q ^ 2]
  · simp [at2, List.getElem?_eq_getElem hk, hi, e _ (List.getElem_mem hk)]

/-! ### concrete cases -/

section concrete

private def icTwo : ConfigSpace ℚ := [⟨"x1", .float (-5) 5 false⟩, ⟨"x2", .float 0 1 false⟩]
private def icMean : Predict ℚ := fun rows => .ok (rows.map fun r => r.getD 0 0 * r.getD 1 0 + r.getD 1 0, rows.map fun r => r.getD 1 0)
private def icBoth : Selection ℚ := .many [.name "x1", .name "x2"]

/-- two grid points on each axis are a part of three; the surface over `x1` and `x2` holds, for `x2 = 1/2`, the curve over `x1` of the sample
moved to `x2 = 1/2`; the second sample is met at the grid point `1/2` of `x1` -/
example : yIce icTwo icMean (.name "x1") [[1/4, 1/3], [1/2, 1/5]] 2 false = .ok [[1/3, 2/3], [1/5, 2/5]] ∧
    yIce icTwo icMean (.name "x1") [[1/4, 1/3], [1/2, 1/5]] 3 false = .ok [[1/3, 1/2, 2/3], [1/5, 3/10, 2/5]] ∧
    (icMean [[1/2, 1/5]]).map Prod.fst = .ok [3/10] ∧
    gridPoints 2 3 = .ok [[0, 0], [1/2, 0], [1, 0], [0, 1/2], [1/2, 1/2], [1, 1/2], [0, 1], [1/2, 1], [(1 : ℚ), 1]] ∧
    yIce icTwo icMean icBoth [[1/4, 1/3]] 3 false = .ok [[0, 0, 0, 1/2, 3/4, 1, 1, 3/2, 2]] ∧
    yIce icTwo icMean (.name "x1") [[1/4, 1/2]] 3 false = .ok [[1/2, 3/4, 1]] ∧
    yPdp icTwo icMean icBoth [[1/4, 1/3], [1/2, 1/5]] 3 = .ok [0, 0, 0, 1/2, 3/4, 1, 1, 3/2, 2] := by decide +kernel

example : DependenceInput icTwo icBoth icTwo [[1/4, 1/3], [1/2, 1/5]] 2 [[0, 0], [1, 0], [0, 1], [1, 1]] :=
  ⟨by decide, by decide +kernel, fun _ h => h, by decide, by decide, by simp, by decide, by decide, by decide +kernel⟩

end concrete

end PyPDP
