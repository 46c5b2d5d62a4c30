/-
C198: the arrays and the PDP of a leaf are those of an ICE and a PDP of its samples alone.
-/
import Verif.Props.MarkedMinimum
import Verif.Props.Recovery

namespace PyPDP
open Spec

section leaves
variable {space possible : List (Hp ℝ)} {N minPoints P : Nat}

/-- the leaves of a tree divide what the curves of its root were made from -/
theorem greedy_parts {cv : List ℝ → Curve ℝ} (hmp : 1 ≤ minPoints) {maxDepth : Int} {n : Node ℝ} {L : List (Node ℝ)} (h : Greedy space possible N minPoints P maxDepth n L) :
    ∀ {S : List (List ℝ)}, S ≠ [] → curves n = S.map cv → ∃ parts : List (List (List ℝ)), parts.flatten.Perm S ∧
      List.Forall₂ (fun T m => T ≠ [] ∧ T.Sublist S ∧ RegionShape P space.length m ∧ curves m = T.map cv) parts L := by
  induction h with
  | @leaf n hsh _ =>
    intro S hS hn
    exact ⟨[S], by simp, .cons ⟨hS, .refl _, hsh, hn⟩ .nil⟩
  | @branch n l r Ll Lr i j hp f hsh hdep h2 hbest hsp hl hr ihl ihr =>
    intro S hS hn
    have el : curves l = (S.filter fun r => decide (featureOf f (cv r) ≤ threshold N j)).map cv := by
      rw [hsp.left_curves, hn, List.filter_map]; rfl
    have er : curves r = (S.filter fun r => !decide (featureOf f (cv r) ≤ threshold N j)).map cv := by
      rw [hsp.right_curves, hn, List.filter_map]
      congr 1
      refine List.filter_congr fun x _ => ?_
      simp only [Function.comp_apply, ← decide_not, not_le]
    have nl : (S.filter fun r => decide (featureOf f (cv r) ≤ threshold N j)) ≠ [] := by
      intro h0
      have := hbest.1.left_size
      rw [lowerPart, ← hsp.left_curves, el, h0] at this
      simp at this
      omega
    have nr : (S.filter fun r => !decide (featureOf f (cv r) ≤ threshold N j)) ≠ [] := by
      intro h0
      have := hbest.1.right_size
      rw [upperPart, ← hsp.right_curves, er, h0] at this
      simp at this
      omega
    obtain ⟨pl, ql, fl⟩ := ihl nl el
    obtain ⟨pr, qr, fr⟩ := ihr nr er
    refine ⟨pr ++ pl, ?_, List.rel_append ?_ ?_⟩
    · rw [List.flatten_append]
      exact ((qr.append ql).trans List.perm_append_comm).trans (List.filter_append_perm _ S)
    · exact fr.imp fun T m h => ⟨h.1, h.2.1.trans List.filter_sublist, h.2.2⟩
    · exact fl.imp fun T m h => ⟨h.1, h.2.1.trans List.filter_sublist, h.2.2⟩

end leaves

/-- two regions with the same curves hold the same arrays -/
theorem arrays_of_curves {P F P' F' : Nat} {m n : Node ℝ} (hm : RegionShape P F m) (hn : RegionShape P' F' n) (h : curves m = curves n) :
    m.x = n.x ∧ m.y = n.y ∧ m.v = n.v := by
  have hx : ∀ {P F : Nat} {n : Node ℝ}, RegionShape P F n → (curves n).map Prod.fst = n.x := by
    intro P F n hn
    unfold curves
    rw [List.map_fst_zip]
    rw [List.length_zip, ← hn.yv, Nat.min_self, hn.xy]
  exact ⟨by rw [← hx hm, ← hx hn, h], by rw [← hm.map_y, ← hn.map_y, h], by rw [← hm.map_v, ← hn.map_v, h]⟩

/-- **C198** the leaves of `partition` divide the samples, and every leaf is what its samples alone give: `ICE(surrogate, selected, T, …)` of
the samples `T` of the leaf has the leaf's arrays, `PDP(surrogate, selected, T, …).as_ice_curve` is the leaf's `pdp_as_ice_curve`, and the two
plots of the leaf draw what the two plots of that PDP draw. -/
theorem C198_leaves {space : ConfigSpace ℝ} (hwf : space.WF) {predict : Predict ℝ} {mu sd : List ℝ → ℝ} (hp : RowWise space.length predict mu sd)
    {sel : Selection ℝ} {samples : List (List ℝ)} (hrows : ∀ r ∈ samples, r.length = space.length) (hs : samples ≠ []) {g N minPoints : Nat} (hg : 1 ≤ g)
    (hmp : 1 ≤ minPoints) {notSplittable : Option (Selection ℝ)} {p : DT ℝ} (h : dtInit space predict sel samples g N minPoints notSplittable = .ok p)
    (hmem : ∀ hp ∈ p.cfg.selected, hp ∈ space) (hd : (p.cfg.selected.map Hp.name).Nodup) (hne : p.cfg.selected ≠ []) {depth : Int} (hdep : 0 < depth) :
    ∃ (leaves : List (Node ℝ)) (parts : List (List (List ℝ))), (dtPartition p depth).2 = .ok leaves ∧ parts.flatten.Perm samples ∧
      List.Forall₂ (fun T m => T ≠ [] ∧ T.Sublist samples ∧ ∃ c s curve, algorithmInit space predict sel T g = .ok c ∧ pdpInit space predict sel T g = .ok s ∧
        (readX (iceInit c)).2 = .ok m.x ∧ (readY (iceInit c)).2 = .ok m.y ∧ (readV (iceInit c)).2 = .ok m.v ∧
        (pdpCurve s).2 = .ok curve ∧ regionPdp p.cfg.space p.cfg.selected m = .ok curve ∧
        (∀ color ax, regionPlotValues color p.cfg.space p.cfg.selected m ax = (pdpPlotValues color s ax).2) ∧
        ∀ lc gc ms ax, regionPlotConfidences lc gc ms p.cfg.space p.cfg.selected m ax = (pdpPlotConfidences lc gc ms s ax).2) parts leaves := by
  obtain ⟨idx, grid, hroot⟩ := rootOf hwf hp hrows hs hg h hmem hd hne
  obtain ⟨L, g1, -, g3, -⟩ := partition_eq hroot.valid hdep
  obtain ⟨parts, q1, q2⟩ := greedy_parts (by rw [hroot.minPoints_eq]; exact hmp) g3 hs hroot.curves_eq
  refine ⟨L, parts, by rw [g1], q1, q2.imp fun T m hT => ?_⟩
  obtain ⟨t1, t2, t3, t4⟩ := hT
  refine ⟨t1, t2, ?_⟩
  obtain ⟨c, ns, i, dd, hc, hns, -, -, -, e⟩ := dtInit_ok h
  obtain ⟨hsel, -⟩ := algorithmInit_eq hc
  have hpc : p.cfg = c := by rw [e]
  rw [← hpc] at hsel
  have hrT : ∀ r ∈ T, r.length = space.length := fun r hr => hrows r (t2.subset hr)
  obtain ⟨q, k1, k2, k3, -, -, -, k7, k8⟩ := dtInit_rows hwf hp hsel hmem hd hne hrT t1 hg N minPoints hns hroot.idx_eq hroot.grid_eq
  obtain ⟨s, curve, r1, r2, r3⟩ := C65_root_is_pdp hwf hrT t1 hg k1 (by rw [k3]; exact hmem) (by rw [k3]; exact hd) (by rw [k3]; exact hne)
  obtain ⟨ex, ey, ev⟩ := arrays_of_curves t3 k7.shape (t4.trans k8.symm)
  have hreg : regionPdp p.cfg.space p.cfg.selected m = .ok curve := by
    rw [← r3, k2, k3, hroot.space_eq]
    unfold regionPdp
    rw [ex, ey, ev]
  obtain ⟨cT, nsT, iT, dT, hcT, -, hcalc, -, -, eT⟩ := dtInit_ok k1
  have hroot' : q.root = ⟨0, dT.x, dT.y, dT.v, []⟩ := by rw [eT]
  obtain ⟨⟨i1, a1, -⟩, ⟨i2, a2, -⟩, i3, a3, -⟩ := reads_of_gives (.inr ⟨fresh_init cT, hcalc⟩)
  refine ⟨cT, s, curve, hcT, r1, by rw [a1, ex, hroot'], by rw [a2, ey, hroot'], by rw [a3, ev, hroot'], r2, hreg, fun color ax => ?_, fun lc gc ms ax => ?_⟩
  · rw [pdpPlotValues_eq r2]
    unfold regionPlotValues
    rw [hreg, Plot.lift_bind_ok]
  · rw [pdpPlotConfidences_eq r2]
    unfold regionPlotConfidences
    rw [hreg, Plot.lift_bind_ok]

section ex
local instance transcLeafPdp : Transc ℚ := ⟨id, id⟩

private def leafPdpPredict : Predict ℚ := fun X => .ok (X.map fun r => r.getD 0 0 + r.getD 1 0, X.map fun r => if r.getD 1 0 ≤ 1/2 then 1 else 2 + r.getD 0 0 ^ 2)

/-- `x`, `y` and the variances of the curves of the leaves -/
private def leafPdpCurves : Py (List (List (List ℚ) × List ℚ × List ℚ)) := do
  let p ← dtInit invSpace leafPdpPredict (.name "a") invSamples 2 3 1 none
  let leaves ← (dtPartition p 1).2
  leaves.mapM fun m => do
    let c ← regionPdp p.cfg.space p.cfg.selected m
    return (c.x, c.y, c.v)

private def pdpCurveOf (T : List (List ℚ)) : Py (List (List ℚ) × List ℚ × List ℚ) := do
  let s ← pdpInit invSpace leafPdpPredict (.name "a") T 2
  let c ← (pdpCurve s).2
  return (c.x, c.y, c.v)

/-- four samples, two leaves: each has the PDP of its two samples, which is not that of all four -/
example : [[[0, 7/8], [0, 1]], [[0, 1/8], [0, 3/8]]].mapM pdpCurveOf = leafPdpCurves ∧
    leafPdpCurves = .ok [([[0, 15/16], [1, 15/16]], [15/16, 31/16], [4, 9]), ([[0, 1/4], [1, 1/4]], [1/4, 5/4], [1, 1])] ∧
    pdpCurveOf invSamples = .ok ([[0, 19/32], [1, 19/32]], [19/32, 51/32], [5/2, 5]) := by
  refine ⟨?_, ?_, ?_⟩ <;> decide +kernel

end ex

end PyPDP
