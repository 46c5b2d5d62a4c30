/-
C106: the script examples/main_2d_pdp.py.
-/
import Verif.Model.Main2D
import Verif.Props.Main
import Verif.Props.MainPaper
import Verif.Props.AdvancedPlots
import Verif.Props.SamplerPlots

namespace PyPDP
open Spec

/-- setting two hyperparameters in a sample -/
theorem replaced_two {cs : ConfigSpace ℝ} (hwf : cs.WF) {p q : Hp ℝ} {f f' : Nat} (hf : cs[f]? = some p) (hf' : cs[f']? = some q) (hne : f ≠ f')
    {r : List ℝ} (hr : r.length = List.length cs) (a b : ℝ) : replaced cs [p, q] [a, b] r = (r.set f a).set f' b := by
  have hname : ∀ (i j : Nat) h h', cs[i]? = some h → cs[j]? = some h' → h.name = h'.name → i = j := by
    intro i j h h' hi hj e
    have h1 : (cs.map Hp.name)[i]? = some h.name := by rw [List.getElem?_map, hi]; rfl
    have h2 : (cs.map Hp.name)[j]? = some h.name := by rw [List.getElem?_map, hj, e]; rfl
    exact (List.getElem?_inj (List.getElem?_eq_some_iff.1 h1).1 hwf).1 (h1.trans h2.symm)
  unfold replaced
  refine List.ext_getElem (by simp [hr]) fun i h1 h2 => ?_
  have hi : i < List.length cs := by simp only [List.length_set] at h2; omega
  have hir : i < r.length := by omega
  rw [List.getElem_zipWith, List.getElem_set, List.getElem_set]
  by_cases e' : f' = i
  · subst e'
    have hq : cs[f'] = q := by rw [List.getElem?_eq_getElem hi] at hf'; exact Option.some.inj hf'
    have hn : ¬ p.name = q.name := fun e => hne (hname f f' p q hf hf' e)
    simp [hq, List.findIdx?_cons, hn]
  · by_cases e : f = i
    · subst e
      have hp : cs[f] = p := by rw [List.getElem?_eq_getElem hi] at hf; exact Option.some.inj hf
      simp [hp, List.findIdx?_cons, e']
    · have hp : ¬ p.name = (cs[i]).name := fun x => e (hname f i p _ hf (List.getElem?_eq_getElem hi) x)
      have hq : ¬ q.name = (cs[i]).name := fun x => e' (hname f' i q _ hf' (List.getElem?_eq_getElem hi) x)
      simp [List.findIdx?_cons, hp, hq, e, e']

/-- the PDP has an ICE object with the attributes `c` that gives the data `d` -/
def IceOf (c : IceCfg ℝ) (d : IceData ℝ) (s : PdpState ℝ) : Prop := ∃ i, s.ice = some i ∧ Gives i d ∧ i.cfg = c

theorem pdpCached_ice {α β : Type} {c : IceCfg ℝ} {d : IceData ℝ} {s : PdpState ℝ} (hs : IceOf c d s) (cached : Option β) {read : IceState ℝ → IceState ℝ × Py α}
    (hread : ∀ i, Gives i d → Gives (read i).1 d ∧ (read i).1.cfg = i.cfg) (avg : α → Py β)
    {store : PdpState ℝ → β → PdpState ℝ} (hst : ∀ s b, (store s b).ice = s.ice) : IceOf c d (pdpCached s cached read avg store).1 := by
  obtain ⟨i, h1, h2, h3⟩ := hs
  obtain ⟨r1, r2⟩ := hread i h2
  unfold pdpCached
  split
  · exact ⟨i, h1, h2, h3⟩
  · have : pdpIce s = .ok i := by simp [pdpIce, h1]
    rw [this]
    dsimp only
    generalize read i = p at r1 r2 ⊢
    obtain ⟨i', r⟩ := p
    dsimp only at r1 r2
    have h4 : i'.cfg = c := r2.trans h3
    cases r with
    | error e => exact ⟨i', rfl, r1, h4⟩
    | ok a =>
      dsimp only
      split
      · exact ⟨i', rfl, r1, h4⟩
      · exact ⟨i', by rw [hst], r1, h4⟩

theorem pdpCurve_ice {c : IceCfg ℝ} {d : IceData ℝ} {s : PdpState ℝ} (hs : IceOf c d s) : IceOf c d (pdpCurve s).1 := by
  have hk : ∀ i : IceState ℝ, Gives i d → (readX i).1.cfg = i.cfg ∧ (readY i).1.cfg = i.cfg ∧ (readV i).1.cfg = i.cfg := by
    intro i hi
    refine C44_read_keeps_attributes i ?_
    rcases hi with h | h
    · exact .inr ⟨d, h⟩
    · exact .inl h.1
  have hx : ∀ s, IceOf c d s → IceOf c d (pdpReadX s).1 := fun s hs => pdpCached_ice hs _ (fun i hi => ⟨by
    obtain ⟨⟨i', h, hst⟩, -, -⟩ := reads_of_gives hi
    rw [h]; exact .inl hst, (hk i hi).1⟩) _ fun _ _ => rfl
  have hy : ∀ s, IceOf c d s → IceOf c d (pdpReadY s).1 := fun s hs => pdpCached_ice hs _ (fun i hi => ⟨by
    obtain ⟨-, ⟨i', h, hst⟩, -⟩ := reads_of_gives hi
    rw [h]; exact .inl hst, (hk i hi).2.1⟩) _ fun _ _ => rfl
  have hv : ∀ s, IceOf c d s → IceOf c d (pdpReadV s).1 := fun s hs => pdpCached_ice hs _ (fun i hi => ⟨by
    obtain ⟨-, -, ⟨i', h, hst⟩⟩ := reads_of_gives hi
    rw [h]; exact .inl hst, (hk i hi).2.2⟩) _ fun _ _ => rfl
  unfold pdpCurve
  have h1 := hx s hs
  generalize pdpReadX s = p at h1 ⊢; obtain ⟨s1, r1⟩ := p
  cases r1 with
  | error e => exact h1
  | ok x =>
    dsimp only
    have h2 := hy s1 h1
    generalize pdpReadY s1 = p at h2 ⊢; obtain ⟨s2, r2⟩ := p
    cases r2 with
    | error e => exact h2
    | ok y =>
      dsimp only
      have h3 := hv s2 h2
      generalize pdpReadV s2 = p at h3 ⊢; obtain ⟨s3, r3⟩ := p
      cases r3 with
      | error e => exact h3
      | ok v => exact h3

/-- only the attributes of the ICE object count for the tree -/
theorem dtFromIce_cfg {i : IceState ℝ} {c : IceCfg ℝ} (h : i.cfg = c) {numSplits minPoints : Nat} {ns : Option (Selection ℝ)} {q : DT ℝ}
    (hq : dtFromIce (iceInit c) numSplits minPoints ns = .ok q) : dtFromIce i numSplits minPoints ns = .ok { q with ice := i } := by
  unfold dtFromIce at hq ⊢
  obtain ⟨p, h1, h2⟩ := Py.bind_eq_ok.1 hq
  simp only [iceInit] at h1
  rw [h, h1, Py.ok_bind, ← Except.ok.inj h2]
  rfl

/-- the average of a region of curves over a grid of two hyperparameters: the points -/
theorem region_points {cs : ConfigSpace ℝ} (hwf : cs.WF) {p q : Hp ℝ} {f f' : Nat} (hf : cs[f]? = some p) (hf' : cs[f']? = some q) (hne : f ≠ f')
    {mu sd : List ℝ → ℝ} {grid : List (List ℝ)} {n : Node ℝ} (hn : RegionShape grid.length cs.length n) {rows : List (List ℝ)} (hr : rows ≠ [])
    (hrows : ∀ r ∈ rows, r.length = List.length cs) (hc : curves n = rows.map (curveOf cs [p, q] mu sd grid)) {c : IceCurve ℝ}
    (hpdp : regionPdp cs [p, q] n = .ok c) {i : Nat} {a b : ℝ} (hi : grid[i]? = some [a, b]) : at2 c.x i f = some a ∧ at2 c.x i f' = some b := by
  have hcne : curves n ≠ [] := by rw [hc]; simpa using hr
  obtain ⟨c', h1, -, -, ax, -, -, h4⟩ := regionPdp_sum cs [p, q] hn hcne
  rw [hpdp] at h1
  obtain rfl := Except.ok.inj h1
  have hig := (List.getElem?_eq_some_iff.1 hi).1
  have hfl := (List.getElem?_eq_some_iff.1 hf).1
  have hfl' := (List.getElem?_eq_some_iff.1 hf').1
  have hl0 : (rows.length : ℝ) ≠ 0 := by exact_mod_cast (List.length_pos_iff.2 hr).ne'
  have key : ∀ (e : Nat) (w : ℝ), e < List.length cs → (∀ r ∈ rows, ((r.set f a).set f' b).getD e 0 = w) → at2 c.x i e = some w := by
    intro e w he hw
    have h5 := (h4 i hig).2.2 e he
    rw [hc, List.length_map, List.map_map] at h5
    have h6 : (rows.map ((fun cv : Curve ℝ => entry cv.1 i e) ∘ curveOf cs [p, q] mu sd grid)) = rows.map fun _ => w := by
      refine List.map_congr_left fun r hr' => ?_
      rw [← hw r hr', ← replaced_two hwf hf hf' hne (hrows r hr')]
      simp [entry, curveOf, List.getD_eq_getElem?_getD, hi]
    rw [h6, List.map_const', List.sum_replicate, nsmul_eq_mul] at h5
    have h7 := mul_left_cancel₀ hl0 h5
    have hxl : i < c.x.length := by rw [ax.1.1]; exact hig
    have hxe : e < c.x[i].length := by rw [ax.1.2 _ (List.getElem_mem hxl)]; exact he
    rw [← h7]
    simp [at2, entry, List.getD_eq_getElem?_getD, List.getElem?_eq_getElem hxl, List.getElem?_eq_getElem hxe]
  constructor
  · refine key f a hfl fun r hr' => ?_
    have : f < r.length := by rw [hrows r hr']; exact hfl
    simp [List.getD_eq_getElem?_getD, hne.symm, this]
  · refine key f' b hfl' fun r hr' => ?_
    have : f' < r.length := by rw [hrows r hr']; exact hfl'
    simp [List.getD_eq_getElem?_getD, this]

theorem averageOver_meanAt {cs : ConfigSpace ℝ} (hwf : cs.WF) {p q : Hp ℝ} {f f' : Nat} (hf : cs[f]? = some p) (hf' : cs[f']? = some q) (hne : f ≠ f')
    {rows : List (List ℝ)} (hrows : ∀ r ∈ rows, r.length = List.length cs) (φ : List ℝ → ℝ) (a b : ℝ) :
    averageOver rows (fun r => φ (replaced cs [p, q] [a, b] r)) = meanOver rows fun r => φ ((r.set f a).set f' b) := by
  unfold averageOver meanOver
  rw [List.map_congr_left fun r hr => by rw [replaced_two hwf hf hf' hne (hrows r hr)]]

/-- the figure of a region: means and standard deviations over all combinations of values of the two hyperparameters, a white point where the mean is smallest -/
theorem region_figure {d : Nat} {cs : ConfigSpace ℝ} (hs : StSpace d cs) {p q : Hp ℝ} {f f' : Nat} (hf : cs[f]? = some p) (hf' : cs[f']? = some q) (hne : f ≠ f')
    {mu sd : List ℝ → ℝ} {P : Nat} (hP : 2 ≤ P) {grid : List (List ℝ)} (hfull : IsFullGrid 2 P grid) (hgl : grid.length = P ^ 2) {n : Node ℝ}
    (hn : RegionShape grid.length cs.length n) {rows : List (List ℝ)} (hr : rows ≠ [])
    (hrows : ∀ r ∈ rows, r.length = List.length cs ∧ ∀ e ∈ r, 0 ≤ e ∧ e ≤ 1) (hc : curves n = rows.map (curveOf cs [p, q] mu sd grid)) {c : IceCurve ℝ}
    (hpdp : regionPdp cs [p, q] n = .ok c)
    (hat : ∀ (i : Nat) t, grid[i]? = some t → c.y[i]? = some (averageOver rows fun r => mu (replaced cs [p, q] t r)) ∧
          c.v[i]? = some (averageOver rows fun r => sd (replaced cs [p, q] t r) ^ 2)) :
    ∃ axM axS surface surface' x y a b, curveWithConfidence c = (axM, axS, .ok ()) ∧
      AxisTwo p q (-5) 5 false (-5) 5 false axM (surface ++ [.points "white" [x] [y]]) ∧
      AxisTwo p q (-5) 5 false (-5) 5 false axS (surface' ++ [.points "white" [x] [y]]) ∧
      Surface (-5) 5 false (-5) 5 false P (meanAt rows mu f f') surface ∧ Surface (-5) 5 false (-5) 5 false P (stdAt rows sd f f') surface' ∧
      (∃ i < P, ∃ j < P, a = gridValue P i ∧ b = gridValue P j) ∧ x = interpolate (-5) 5 false a ∧ y = interpolate (-5) 5 false b ∧
      ∀ i < P, ∀ j < P, meanAt rows mu f f' a b ≤ meanAt rows mu f f' (gridValue P i) (gridValue P j) := by
  have hcne : curves n ≠ [] := by rw [hc]; simpa using hr
  have hmp := List.mem_of_getElem? hf
  have hmq := List.mem_of_getElem? hf'
  have hdecl : AllDeclared cs := fun hp hh => ⟨-5, 5, false, hs.declares hh⟩
  obtain ⟨c', h1, h2, h3, ax, ay, av, -⟩ := regionPdp_sum cs [p, q] hn hcne
  rw [hpdp] at h1
  obtain rfl := Except.ok.inj h1
  -- the curves are in the unit cube
  have hxs : n.x = rows.map fun r => (curveOf cs [p, q] mu sd grid r).1 := by
    have e : (curves n).map Prod.fst = n.x := by
      unfold curves
      rw [List.map_fst_zip]
      rw [List.length_zip, ← hn.yv, Nat.min_self, hn.xy]
    rw [← e, hc, List.map_map]; rfl
  have hgu : ∀ t ∈ grid, ∃ a b, t = [a, b] ∧ (0 ≤ a ∧ a ≤ 1) ∧ 0 ≤ b ∧ b ≤ 1 := by
    intro t ht
    obtain ⟨t1, t2⟩ := (hfull.2 t).1 ht
    obtain ⟨a, b, rfl⟩ := List.length_eq_two.1 t1
    have hu : ∀ v ∈ [a, b], 0 ≤ v ∧ v ≤ 1 := by
      intro v hv
      obtain ⟨i, hi, rfl⟩ := t2 v hv
      have := (linspace_fraction hi).2
      exact this
    exact ⟨a, b, rfl, hu a (by simp), hu b (by simp)⟩
  have hu : ∀ m ∈ n.x, ∀ r ∈ m, ∀ e ∈ r, 0 ≤ e ∧ e ≤ 1 := by
    intro m hm r hr' e he
    rw [hxs] at hm
    obtain ⟨r0, hr0, rfl⟩ := List.mem_map.1 hm
    obtain ⟨t, ht, rfl⟩ := List.mem_map.1 (show r ∈ grid.map fun t => replaced cs [p, q] t r0 from hr')
    obtain ⟨a, b, rfl, ha, hb⟩ := hgu t ht
    rw [replaced_two hs.wf hf hf' hne (hrows r0 hr0).1] at he
    rcases List.mem_or_eq_of_mem_set he with he | rfl
    · rcases List.mem_or_eq_of_mem_set he with he | rfl
      · exact (hrows r0 hr0).2 e he
      · exact ha
    · exact hb
  have hvalid : ValidCurve c := by
    have := validCurve_average hdecl (sel := [p, q]) (by simp [hmp, hmq]) hu ax ay av
    rcases c with ⟨sp, sl, x, y, v⟩
    simp only at h2 h3
    subst h2 h3
    exact this
  have hxl : c.x.length = grid.length := ax.1.1
  have hyl : c.y.length = grid.length := ay.1
  have hvl : c.v.length = grid.length := av.1
  have hv0 : ∀ v ∈ c.v, 0 ≤ v := by
    intro v hv
    obtain ⟨i, hi, rfl⟩ := List.getElem_of_mem hv
    have := (hat i _ (List.getElem?_eq_getElem (by omega))).2
    rw [List.getElem?_eq_getElem hi] at this
    rw [Option.some.inj this]
    unfold averageOver
    refine div_nonneg (List.sum_nonneg fun e he => ?_) (Nat.cast_nonneg _)
    obtain ⟨r, -, rfl⟩ := List.mem_map.1 he
    exact sq_nonneg _
  obtain ⟨axM, axS, xs, ys, s, i, m, x, y, k1, k2, k3, k4, k5, k6, k7, k8, k9⟩ := C95_two hvalid hv0 h3 (by rw [hxl, hgl]; nlinarith)
    (.inl (hs.kind p hmp)) (.inl (hs.kind q hmq))
  rw [h2] at k4 k5
  have hrl : ∀ r ∈ rows, r.length = List.length cs := fun r hr => (hrows r hr).1
  have huniq : ∀ {h : Hp ℝ} {e e' : Nat}, cs[e]? = some h → IsFeature cs h e' → e' = e := by
    rintro h e e' he ⟨h', he', hn'⟩
    have h1 : (cs.map Hp.name)[e]? = some h.name := by rw [List.getElem?_map, he]; rfl
    have h2 : (cs.map Hp.name)[e']? = some h.name := by rw [List.getElem?_map, he', ← hn']; rfl
    exact ((List.getElem?_inj (List.getElem?_eq_some_iff.1 h2).1 hs.wf).1 (h2.trans h1.symm))
  have hcoord : ∀ (i : Nat) a b, grid[i]? = some [a, b] → xs[i]? = some (interpolate (-5) 5 false a) ∧ ys[i]? = some (interpolate (-5) 5 false b) := by
    intro i a b hi
    obtain ⟨e1, e2⟩ := region_points hs.wf hf hf' hne hn hr hrl hc hpdp hi
    have hi' : i < c.x.length := by rw [hxl]; exact (List.getElem?_eq_some_iff.1 hi).1
    exact ⟨natural_eq (.inl (hs.kind p hmp)) (fun e he => by rw [huniq hf he]; exact e1) k4 hi',
      natural_eq (.inl (hs.kind q hmq)) (fun e he => by rw [huniq hf' he]; exact e2) k5 hi'⟩
  have hmean : ∀ (i : Nat) a b, grid[i]? = some [a, b] → c.y[i]? = some (meanAt rows mu f f' a b) := by
    intro i a b hi
    rw [(hat i _ hi).1, averageOver_meanAt hs.wf hf hf' hne hrl]; rfl
  have hxsl : xs.length = grid.length := by rw [← k4.length_eq, hxl]
  have hysl : ys.length = grid.length := by rw [← k5.length_eq, hxl]
  -- the smallest value
  obtain ⟨f1, f2, -⟩ := k7
  have hig : i < grid.length := by rw [← hyl]; exact (List.getElem?_eq_some_iff.1 f1).1
  obtain ⟨a, b, hab, -, -⟩ := hgu _ (List.getElem_mem hig)
  have hgi : grid[i]? = some [a, b] := by rw [List.getElem?_eq_getElem hig, hab]
  refine ⟨axM, axS, [.tri xs ys c.y], [.tri xs ys s], x, y, a, b, k1, k2, k3, surface_of hfull hxsl hysl hyl fun i a b hi => ?_, surface_of hfull hxsl hysl ?_ fun i a b hi => ?_,
    ?_, ?_, ?_, fun j hj j' hj' => ?_⟩
  · exact ⟨(hcoord i a b hi).1, (hcoord i a b hi).2, hmean i a b hi⟩
  · rw [← k6.length_eq, hvl]
  · refine ⟨(hcoord i a b hi).1, (hcoord i a b hi).2, ?_⟩
    have hiv : i < c.v.length := by rw [hvl]; exact (List.getElem?_eq_some_iff.1 hi).1
    have his : i < s.length := by rw [← k6.length_eq]; exact hiv
    obtain ⟨z1, z2⟩ := (List.forall₂_iff_get.1 k6).2 i hiv his
    simp only [List.get_eq_getElem] at z1 z2
    have := (hat i _ hi).2
    rw [averageOver_meanAt hs.wf hf hf' hne hrl (fun r => sd r ^ 2), List.getElem?_eq_getElem hiv] at this
    rw [List.getElem?_eq_getElem his]
    unfold stdAt
    rw [← Option.some.inj this, ← z2, Real.sqrt_mul_self z1]
  · obtain ⟨-, hv⟩ := (hfull.2 [a, b]).1 (List.mem_of_getElem? hgi)
    obtain ⟨j, hj, e1⟩ := hv a (by simp)
    obtain ⟨j', hj', e2⟩ := hv b (by simp)
    exact ⟨j, hj, j', hj', e1, e2⟩
  · have := (hcoord i a b hgi).1
    rw [k8] at this
    exact Option.some.inj this
  · have := (hcoord i a b hgi).2
    rw [k9] at this
    exact Option.some.inj this
  · have hm : [gridValue P j, gridValue P j'] ∈ grid := (hfull.2 _).2 ⟨rfl, by
      intro v hv
      simp only [List.mem_cons, List.not_mem_nil, or_false] at hv
      rcases hv with rfl | rfl
      · exact ⟨j, hj, rfl⟩
      · exact ⟨j', hj', rfl⟩⟩
    obtain ⟨o, ho⟩ := List.mem_iff_getElem?.1 hm
    have e1 := hmean o _ _ ho
    have e2 := hmean i _ _ hgi
    rw [f1] at e2
    rw [← Option.some.inj e2]
    exact not_lt.1 (f2 _ (List.mem_of_getElem? e1))

/-- the two figures of the PDP over two hyperparameters; the ICE object keeps its attributes -/
theorem pdp_figures {cs : ConfigSpace ℝ} (hwf : cs.WF) (hcs : AllDeclared cs) {predict : Predict ℝ} {mu sd : List ℝ → ℝ} (hp : RowWise cs.length predict mu sd)
    {perAxis : Nat} {draws : Draws (Config ℝ)} {samples : List (List ℝ)} (hdr : UnitDraws cs draws samples) (hP : 2 ≤ perAxis) {p q : Hp ℝ} {l u : ℝ} {g : Bool}
    (hk : p.kind = .float l u g ∨ p.kind = .integer l u g) {l' u' : ℝ} {g' : Bool} (hk' : q.kind = .float l' u' g' ∨ q.kind = .integer l' u' g') {f f' : Nat}
    (hf : cs[f]? = some p) (hf' : cs[f']? = some q) (hnames : p.name ≠ q.name) {c : IceCfg ℝ}
    (hcd : c = ⟨cs, [p, q], samples, samples.length, perAxis, perAxis ^ 2, false, predict⟩) :
    ∃ pdp1 pdp2 axM axS surface surface' d, pdpPlotValues "red" ⟨c, some (iceInit c), none, none, none⟩ Ax.new = (pdp1, axM, .ok ()) ∧
      pdpPlotConfidences "red" "lightsalmon" (3 / 2) pdp1 Ax.new = (pdp2, axS, .ok ()) ∧
      AxisTwo p q l u g l' u' g' axM surface ∧ AxisTwo p q l u g l' u' g' axS surface' ∧
      Surface l u g l' u' g' perAxis (meanAt samples mu f f') surface ∧ Surface l u g l' u' g' perAxis (stdAt samples sd f f') surface' ∧ IceOf c d pdp2 := by
  have hP0 : perAxis ≠ 0 := by omega
  have hc := plottable_drawn hwf hcs hp hP0 hdr (sel := [p, q]) (by
    simp only [List.mem_cons, List.not_mem_nil, or_false, forall_eq_or_imp, forall_eq]
    exact ⟨List.mem_of_getElem? hf, List.mem_of_getElem? hf'⟩) (by simpa using hnames) (by simp)
  obtain ⟨-, d, hd⟩ := own_gives hc
  have hd : Gives (iceInit c) d := by subst hcd; exact hd
  have hice : pdpIce ⟨c, none, none, none, none⟩ = .ok (iceInit c) := by subst hcd; exact pdpIce_own rfl
  have hsame : SameCurve ⟨c, none, none, none, none⟩ ⟨c, some (iceInit c), none, none, none⟩ :=
    sameCurve_ice (s := ⟨c, none, none, none, none⟩) ⟨rfl, rfl, rfl⟩ hice hd hd
  have hax := newAxis_two hk hk' "Prediction"
  obtain ⟨ax0, hax0⟩ : ∃ ax0 : Ax ℝ, ax0 = ⟨p.name, q.name, g, g', some (l, u), some (l', u'), []⟩ := ⟨_, rfl⟩
  rw [← hax0] at hax
  obtain ⟨s1, grid, xs, ys, zs, h1, h2, h3, h4, h5, h6⟩ := C83_pdp_two (s := ⟨c, none, none, none, none⟩) ⟨rfl, rfl, rfl⟩ rfl
    (by subst hcd; exact hc) (by subst hcd; rfl) (by subst hcd; exact hP) hk hk' (by subst hcd; exact ⟨p, hf, rfl⟩) (by subst hcd; exact ⟨q, hf', rfl⟩)
    hax "red"
  obtain ⟨s2, grid', xs', ys', zs', k1, k2, k3, k4, k5, k6⟩ := C84_pdp_two (s := ⟨c, none, none, none, none⟩) ⟨rfl, rfl, rfl⟩ rfl
    (by subst hcd; exact hc) (by subst hcd; rfl) (by subst hcd; exact hP) hk hk' (by subst hcd; exact ⟨p, hf, rfl⟩) (by subst hcd; exact ⟨q, hf', rfl⟩)
    hax "red" "lightsalmon" (3 / 2)
  obtain ⟨v1, v2⟩ := pdpPlotValues_same hsame "red" Ax.new
  obtain ⟨w1, w2⟩ := pdpPlotConfidences_same hsame.read "red" "lightsalmon" (3 / 2) Ax.new
  rw [h1] at v1
  rw [k1] at w1
  refine ⟨(pdpCurve ⟨c, some (iceInit c), none, none, none⟩).1, (pdpCurve (pdpCurve ⟨c, some (iceInit c), none, none, none⟩).1).1,
    ax0.draw [.tri xs ys zs], ax0.draw [.tri xs' ys' zs'], [.tri xs ys zs], [.tri xs' ys' zs'], d, Prod.ext v2 v1, Prod.ext w2 w1, ?_, ?_, ?_, ?_, ?_⟩
  · subst hax0; rfl
  · subst hax0; rfl
  · subst hcd
    exact surface_of h2 h3 h4 h5 h6
  · subst hcd
    refine surface_of k2 k3 k4 k5 fun i a b hi => ?_
    obtain ⟨m1, m2, t, m3, m4, m5⟩ := k6 i a b hi
    refine ⟨m1, m2, ?_⟩
    rw [m3]
    unfold stdAt
    rw [← m5, Real.sqrt_mul_self m4]
  · exact pdpCurve_ice (pdpCurve_ice ⟨_, rfl, hd, rfl⟩)

/-- drawn configurations can be read -/
theorem readsAs_drawn {d : Nat} {cs : ConfigSpace ℝ} (hs : StSpace d cs) {p : Hp ℝ} (hp : p ∈ cs) {l : List (Config ℝ)} (hl : ∀ c ∈ l, DrawnFrom cs c) :
    ∃ xs, ReadsAs p.name l xs := by
  induction l with
  | nil => exact ⟨[], .nil⟩
  | cons c cs' ih =>
    obtain ⟨xs, hxs⟩ := ih fun c hc => hl c (by simp [hc])
    obtain ⟨i, hi, rfl⟩ := List.getElem_of_mem hp
    obtain ⟨x, -, -, h⟩ := (hl c (by simp)).get hs ⟨i, hi⟩
    exact ⟨x :: xs, .cons h hxs⟩

open Classical in
/-- **C106** examples/main_2d_pdp.py runs through in every dimension `d ≥ 2`, for every two different axes and whatever is drawn. `n + 4 d` points of
the function are evaluated. The first figure shows the means of the predictions over all combinations of values of the two hyperparameters, together with
the evaluated points. It is not kept: the second figure (the standard deviations, with the same points) is saved under the same name. The
folder then holds two images. The last one shows the means and the standard deviations over those samples that lie in the region of the best evaluated point, with a white
point where the mean is smallest. -/
theorem C106_main_2d {S : Type} {i : MainInput S} {d : Nat} (hd : 2 ≤ d) {f : BlackboxFn ℝ}
    (hf : forNDimensions i.order (-5) 5 false styblinskiTangValue (d : ℝ) none none = .ok f) (hi : i.Good f.cs) {draws : List (Config ℝ)} (hdraws : i.iceDraws = .many draws)
    (argsort : List ℝ → List Nat) {k k' : Nat} (hk : 1 ≤ k ∧ k ≤ d) (hk' : 1 ≤ k' ∧ k' ≤ d) (hkk : k ≠ k')
    (kind : AcqKind) {n nCandidates : Int} (hn0 : 0 ≤ n) (hn : 2 ≤ nCandidates) {perAxis : Nat} (hg : 2 ≤ perAxis) (numSplits : Nat) {minPoints : Nat}
    (hm : 1 ≤ minPoints) {depth : Int} (hdep : 0 < depth) :
    ∃ (res : TwoDimResult S) (p q : Hp ℝ) (e e' : Nat) (best : Config ℝ) (gp : GpSurrogate) (mu sd : List ℝ → ℝ) (inside : List (List ℝ)) (axStds axM axS : Ax ℝ)
      (xs ys : List ℝ) (s1 s2 s3 s4 : List (Shape ℝ)) (x y a b : ℝ),
      twoDimScript i argsort d ("x" ++ toString k) ("x" ++ toString k') kind n nCandidates perAxis numSplits minPoints depth = .ok res ∧
      f.cs.get ("x" ++ toString k) = .ok p ∧ f.cs.get ("x" ++ toString k') = .ok q ∧ f.cs[e]? = some p ∧ f.cs[e']? = some q ∧
      -- the evaluated points
      res.sampler.configs.length = (n + 4 * d).toNat ∧ res.sampler.ys.length = (n + 4 * d).toNat ∧
      (∀ (j : Nat) c y, res.sampler.configs[j]? = some c → res.sampler.ys[j]? = some y → f.value c = .ok y) ∧
      (∃ (j : Nat) (v : ℝ), res.sampler.configs[j]? = some best ∧ res.sampler.ys[j]? = some v ∧ ∀ y ∈ res.sampler.ys, v ≤ y) ∧
      -- the surrogate
      GpSurrogate.new.fit i.choose (res.sampler.configs.map Config.vector) res.sampler.ys = (gp, .ok ()) ∧ RowWise d gp.predict mu sd ∧
      -- the figures of the PDP
      ReadsAs p.name res.sampler.configs xs ∧ ReadsAs q.name res.sampler.configs ys ∧
      AxisTwo p q (-5) 5 false (-5) 5 false res.means (s1 ++ [.points "red" xs ys]) ∧
      Surface (-5) 5 false (-5) 5 false perAxis (meanAt (draws.map Config.vector) mu e e') s1 ∧
      AxisTwo p q (-5) 5 false (-5) 5 false axStds (s2 ++ [.points "red" xs ys]) ∧
      Surface (-5) 5 false (-5) 5 false perAxis (stdAt (draws.map Config.vector) sd e e') s2 ∧
      -- the files
      res.files = [("mean_and_sampler", [axStds]), ("region_pdp", [axM, axS])] ∧
      -- the figure of the region
      containsAll f.cs res.region.conds best = .ok true ∧
      inside = (draws.filter fun c => decide (containsAll f.cs res.region.conds c = .ok true)).map Config.vector ∧ inside ≠ [] ∧
      (minPoints ≤ inside.length ∨ inside = draws.map Config.vector) ∧
      AxisTwo p q (-5) 5 false (-5) 5 false axM (s3 ++ [.points "white" [x] [y]]) ∧
      Surface (-5) 5 false (-5) 5 false perAxis (meanAt inside mu e e') s3 ∧
      AxisTwo p q (-5) 5 false (-5) 5 false axS (s4 ++ [.points "white" [x] [y]]) ∧
      Surface (-5) 5 false (-5) 5 false perAxis (stdAt inside sd e e') s4 ∧
      (∃ i < perAxis, ∃ j < perAxis, a = gridValue perAxis i ∧ b = gridValue perAxis j) ∧ x = -5 + 10 * a ∧ y = -5 + 10 * b ∧
      ∀ i < perAxis, ∀ j < perAxis, meanAt inside mu e e' a b ≤ meanAt inside mu e e' (gridValue perAxis i) (gridValue perAxis j) := by
  obtain ⟨cs, h1, hs, hnames⟩ := stSpace_ok hi.order d
  rw [hf] at h1
  have hfe : f = ⟨cs, styblinskiTangValue cs⟩ := Except.ok.inj h1
  subst hfe
  dsimp only at hi ⊢
  obtain ⟨p, hp, hpn⟩ := hnames k hk.1 hk.2
  obtain ⟨q, hq, hqn⟩ := hnames k' hk'.1 hk'.2
  have hgp : cs.get ("x" ++ toString k) = .ok p := by rw [← hpn]; exact ConfigSpace.get_of_mem hs.wf hp
  have hgq : cs.get ("x" ++ toString k') = .ok q := by rw [← hqn]; exact ConfigSpace.get_of_mem hs.wf hq
  have hpq : p.name ≠ q.name := by
    rw [hpn, hqn]
    exact fun h => hkk (name_inj h)
  obtain ⟨e, he⟩ := List.mem_iff_getElem?.1 hp
  obtain ⟨e', he'⟩ := List.mem_iff_getElem?.1 hq
  have hee : e ≠ e' := by
    rintro rfl
    rw [he] at he'
    exact hpq (by rw [Option.some.inj he'])
  obtain ⟨env, s, henv, hsamp, hlen, hdrawn, hyl, hvals⟩ := main_sampler (by omega) hs hi kind hn (initial := d * 4) (n := n + d * 4) (by omega) (by omega)
  have hne : s.configs ≠ [] := by
    intro h; rw [h] at hlen; simp at hlen; omega
  have hlen' : s.configs.length = (n + 4 * d).toNat := by rw [hlen]; congr 1; ring
  have hdata : TrainingData cs.length (s.configs.map Config.vector) s.ys := configs_data (by rw [hs.len]; omega) hne (fun c hc => (hdrawn c hc).1) hyl
  obtain ⟨gp, hfit, -, mu, sd, hrow, -, -⟩ := C99_unit hi.kernel hdata
  obtain ⟨l, hl, hlne, hld⟩ := hi.ice
  rw [hdraws] at hl
  obtain rfl : draws = l := by injection hl
  obtain ⟨samples, hsm⟩ : ∃ x, x = draws.map Config.vector := ⟨_, rfl⟩
  have hsne : samples ≠ [] := by rw [hsm]; simpa using hlne
  have hrows : ∀ r ∈ samples, r.length = List.length cs ∧ ∀ e ∈ r, 0 ≤ e ∧ e ≤ 1 := by
    intro r hr
    rw [hsm] at hr
    obtain ⟨c, hc, rfl⟩ := List.mem_map.1 hr
    exact ⟨(hld c hc).1, (hld c hc).2.1⟩
  have hdr : UnitDraws cs i.iceDraws samples := ⟨draws, hdraws, hsm, hsne, hrows⟩
  have hconf : ∀ r, ∃ c : Config ℝ, r ∈ samples → c ∈ draws ∧ c.vector = r := by
    intro r
    by_cases hr : r ∈ samples
    · have hr' := hr
      rw [hsm] at hr'
      obtain ⟨c, hc, e⟩ := List.mem_map.1 hr'
      exact ⟨c, fun _ => ⟨hc, e⟩⟩
    · exact ⟨⟨[], []⟩, fun h => absurd h hr⟩
  choose config hconfig using hconf
  obtain ⟨j, best, v, hinc, hj, hjv, hbest⟩ := incumbent_best hyl hne
  have hwithin := (hdrawn best (List.mem_of_getElem? hj)).within hs
  obtain ⟨sel, hselv⟩ : ∃ sel : Selection ℝ, sel = .many [.name ("x" ++ toString k), .name ("x" ++ toString k')] := ⟨_, rfl⟩
  have hmapM : ([SelItem.name ("x" ++ toString k), SelItem.name ("x" ++ toString k')] : List (SelItem ℝ)).mapM (resolveItem cs) = .ok [p, q] := by
    rw [Py.mapM_eq_ok]
    exact .cons hgp (.cons hgq .nil)
  have hsel : convertHyperparameters sel cs = .ok [p, q] := by rw [hselv]; exact hmapM
  have hsel' : getHyperparameters sel cs = .ok [p, q] := by rw [hselv]; exact hmapM
  obtain ⟨c, pdp, curve, tree, tree', leaves, region, k1, k2, k3, k4, k5, k6, grid, box, part, inside, ⟨g1, g2, g3, g4, g5, g6⟩, gfull, gl, q1, q2, q3, q4, q5,
    q6, q7, -, q8, q9, q10, q11, q12, q13, q14, q15⟩ :=
    workflow_curves hs.wf hs.float hrow hsel (by simp [hp, hq]) (by simpa using hpq) (by simp) (fun r hr => (hrows r hr).1) hsne (by omega : 1 ≤ perAxis) numSplits hm hdep
      hwithin (config := config) (fun r hr => by
        obtain ⟨a, b⟩ := hconfig r hr
        have := (hld _ a).2.2.2
        rwa [b] at this)
  have hcd : c = ⟨cs, [p, q], samples, samples.length, perAxis, perAxis ^ 2, false, gp.predict⟩ := by
    rw [algorithmInit, hsel] at k1
    exact (Except.ok.inj k1).symm
  have hpdp : pdp = ⟨c, some (iceInit c), none, none, none⟩ := by
    unfold pdpFromIce at k2
    simp only [iceInit] at k2
    rw [pdpInit_drawn] at k2
    rw [← Except.ok.inj k2, hcd]
    rfl
  obtain ⟨pdp1, pdp2, ax1, ax2, s1, s2, dat, f1, f2, f3, f4, f5, f6, ice, f7, -, f8⟩ := pdp_figures hs.wf (fun hp hh => ⟨-5, 5, false, hs.declares hh⟩) hrow hdr hg
    (.inl (hs.kind p hp)) (.inl (hs.kind q hq)) he he' hpq hcd
  obtain ⟨xs, hxs⟩ := readsAs_drawn hs hp hdrawn
  obtain ⟨ys, hys⟩ := readsAs_drawn hs hq hdrawn
  have hax := newAxis_two (.inl (hs.kind p hp)) (.inl (hs.kind q hq)) "Prediction"
  have hplot : ∀ (ax : Ax ℝ) (sh : List (Shape ℝ)), AxisTwo p q (-5) 5 false (-5) 5 false ax sh → ∃ ax', samplerPlot argsort "red" cs sel s ax = (ax', .ok ()) ∧
      AxisTwo p q (-5) 5 false (-5) 5 false ax' (sh ++ [.points "red" xs ys]) := by
    intro ax sh hsh
    have := axis_again hax sh
    have e : (⟨p.name, q.name, false, false, some (-5, 5), some (-5, 5), []⟩ : Ax ℝ).draw sh = ax := by rw [hsh]; rfl
    rw [e] at this
    refine ⟨_, C86_two argsort hsel' hne hxs hys "red" this, ?_⟩
    rw [hsh]; rfl
  obtain ⟨axMeans, p1, p2⟩ := hplot ax1 s1 f3
  obtain ⟨axStds, p3, p4⟩ := hplot ax2 s2 f4
  have hsub : ∀ r ∈ inside, r ∈ samples := by
    intro r hr; rw [q9] at hr; exact List.mem_of_mem_filter hr
  obtain ⟨axM, axS, s3, s4, x, y, a, b, r1, r2, r3, r4, r5, r6, r7, r8, r9⟩ := region_figure hs he he' hee hg (by simpa using gfull) gl g3 q10
    (fun r hr => hrows r (hsub r hr)) g6 q12 q13
  have hcoord : ∀ t : ℝ, interpolate (-5) 5 false t = -5 + 10 * t := by
    intro t; simp only [interpolate]; norm_num; ring
  rw [hcoord] at r7 r8
  have hins : inside = (draws.filter fun c => decide (containsAll cs region.conds c = .ok true)).map Config.vector := by
    rw [q9, hsm, List.filter_map]
    congr 1
    refine List.filter_congr fun c hc => ?_
    obtain ⟨c1, c2⟩ := hconfig c.vector (by rw [hsm]; exact List.mem_map_of_mem hc)
    simp only [Function.comp, (hld _ c1).unique hs (hld c hc) c2]
  -- the tree of the ICE object after the plots
  have hdt := dtFromIce_cfg f8 k4
  have hcg := dtPartition_congr (p := { tree with ice := ice }) (q := tree) rfl rfl rfl rfl rfl depth
  rw [k5] at hcg
  obtain ⟨t2, ht2⟩ : ∃ t2, t2 = (dtPartition { tree with ice := ice } depth).1 := ⟨_, rfl⟩
  have hpart : dtPartition { tree with ice := ice } depth = (t2, .ok leaves) := Prod.ext ht2.symm hcg.1
  have hcfg : ∀ t : DT ℝ, (dtPartition t depth).1.cfg = t.cfg := by
    intro t
    unfold dtPartition
    split <;> split <;> rfl
  have ht2c : t2.cfg = tree.cfg := by rw [ht2]; exact hcfg { tree with ice := ice }
  have ht'c : tree'.cfg = tree.cfg := by have := hcfg tree; rw [k5] at this; exact this
  have ht2l : t2.leaves = tree'.leaves := by rw [ht2]; exact hcg.2 hdep
  have htree : tree.cfg = c := by
    unfold dtFromIce at k4
    obtain ⟨q0, a1, a2⟩ := Py.bind_eq_ok.1 k4
    obtain ⟨c', _, _, _, b1, -, -, -, -, rfl⟩ := dtInit_ok a1
    rw [← Except.ok.inj a2]
    have := algorithmInit_self (c := c) (by rw [hcd]) (by rw [hcd]; rfl)
    simp only [iceInit] at b1
    rw [this] at b1
    rw [← Except.ok.inj b1, hcd]
  have hinc2 : dtIncumbentRegion t2 best = .ok (some region) := by
    rw [← k6]
    unfold dtIncumbentRegion
    rw [ht2c, ht'c, ht2l]
  refine ⟨⟨s, region, axMeans, [("mean_and_sampler", [axStds]), ("region_pdp", [axM, axS])]⟩, p, q, e, e', best, gp, mu, sd, inside, axStds, axM, axS, xs, ys, s1, s2, s3, s4, x, y, a, b,
    ?_, hgp, hgq, he, he', hlen', hyl.trans hlen', hvals, ⟨j, v, hj, hjv, hbest⟩, hfit, hs.len ▸ hrow, hxs, hys, p2, by rw [← hsm]; exact f5, p4, by rw [← hsm]; exact f6, rfl,
    q6, hins, q10, by rw [← hsm]; exact q11, r2, r4, r3, r5, r6, r7, r8, r9⟩
  unfold twoDimScript
  rw [hf, Py.ok_bind]
  dsimp only
  rw [henv, Py.ok_bind]
  dsimp only
  rw [hsamp]
  dsimp only
  rw [hfit]
  dsimp only
  rw [samplesOf_drawn hdr, Py.ok_bind, ← hselv, k1, Py.ok_bind, k2, Py.ok_bind, hpdp, f1]
  dsimp only
  rw [p1]
  dsimp only
  rw [f2]
  dsimp only
  rw [p3]
  dsimp only
  rw [show pdpIce pdp2 = .ok ice by simp [pdpIce, f7], Py.ok_bind, hdt, Py.ok_bind, hpart]
  dsimp only
  rw [hinc, Py.ok_bind]
  dsimp only
  rw [hinc2, Py.ok_bind]
  dsimp only
  rw [ht2c, htree, show c.selected = [p, q] by rw [hcd], q12, Py.ok_bind, r1]
  simp [saveFig, pure, Except.pure]

/-- the hypotheses hold for the call of the script (3 dimensions, 80 + 12 points, `x1` and `x2`), here with a generator that always draws the middle of
the space: three figures are made, two files are left, and the lost figure shows 400 means and 92 points -/
example : ∃ (i : MainInput Unit) (res : TwoDimResult Unit), twoDimScript i (fun _ => []) 3 "x1" "x2" (.lcb (1/10)) 80 100 20 100 10 1 = .ok res ∧
    res.files.map Prod.fst = ["mean_and_sampler", "region_pdp"] ∧ (∀ p ∈ res.files, p.1 = "mean_and_sampler" → p.2.length = 1) ∧
    ∃ x y z xs ys, res.means.shapes = [.tri x y z, .points "red" xs ys] ∧ z.length = 400 ∧ xs.length = 92 := by
  obtain ⟨cs, hf, hs, -⟩ := stSpace_ok (order := id) (fun l => List.Perm.refl l) 3
  obtain ⟨dr, hdr⟩ : ∃ dr : Drawer (Config ℝ) Unit, dr = ⟨fun _ n => (List.replicate n (midConfig cs), ()), by simp⟩ := ⟨_, rfl⟩
  have hdrawn : ∀ s n, ∀ c ∈ (dr.draw s n).1, DrawnFrom cs c := by
    intro s n c hc
    rw [hdr] at hc
    rw [List.eq_of_mem_replicate hc]
    exact midConfig_drawn hs
  obtain ⟨res, p, q, e, e', best, gp, mu, sd, inside, axStds, axM, axS, xs, ys, s1, s2, s3, s4, x, y, a, b, h1, -, -, -, -, h2, -, -, -, -, -, h3, -, h4, h5, -, -, h6, -⟩ :=
    C106_main_2d (S := Unit) (d := 3)
    (i := ⟨id, fun _ _ => matern 1, fun _ _ => 0, dr, dr, (), fun _ => .error .value, .absent, .many (List.replicate 1000 (midConfig cs))⟩)
    (by norm_num) hf ⟨fun l => List.Perm.refl l, fun _ _ => matern_unit one_pos _, hdrawn, hdrawn, by simp [loadCache],
      ⟨_, rfl, List.ne_nil_of_length_pos (by rw [List.length_replicate]; norm_num), fun c hc => by rw [List.eq_of_mem_replicate hc]; exact midConfig_drawn hs⟩⟩ rfl (fun _ => [])
    (k := 1) (k' := 2) (by norm_num) (by norm_num) (by norm_num) (.lcb (1/10))
    (n := 80) (nCandidates := 100) (by norm_num) (by norm_num) (perAxis := 20) (by norm_num) 100 (minPoints := 10) (by norm_num) (depth := 1) (by norm_num)
  refine ⟨_, res, h1, by rw [h6]; rfl, by rw [h6]; simp, ?_⟩
  obtain ⟨grid, g1, g2, rfl⟩ := h5
  rw [h4]
  refine ⟨_, _, _, xs, ys, rfl, ?_, ?_⟩
  · have hinj : ∀ i j : Nat, gridValue 20 i = gridValue 20 j → i = j := by
      intro i j h
      unfold gridValue at h
      norm_num at h
      exact h
    have : grid.toFinset = ((Finset.range 20).image (gridValue 20)) ×ˢ ((Finset.range 20).image (gridValue 20)) := by
      ext ⟨a, b⟩
      rw [List.mem_toFinset, g2]
      simp only [Finset.mem_product, Finset.mem_image, Finset.mem_range]
      constructor
      · rintro ⟨⟨i, hi, rfl⟩, j, hj, rfl⟩
        exact ⟨⟨i, hi, rfl⟩, j, hj, rfl⟩
      · rintro ⟨⟨i, hi, rfl⟩, j, hj, rfl⟩
        exact ⟨⟨i, hi, rfl⟩, j, hj, rfl⟩
    rw [List.length_map, ← List.toFinset_card_of_nodup g1, this, Finset.card_product, Finset.card_image_of_injective _ (fun i j h => hinj i j h), Finset.card_range]
  · rw [← h3.length_eq, h2]
    rfl

end PyPDP
